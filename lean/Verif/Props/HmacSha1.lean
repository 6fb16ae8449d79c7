import Verif.Props.HmacMessages
import Verif.Spec.Sha1

/-!
C149: HMAC, PBKDF2 and the 802.11 PRF with SHA-1 of FIPS 180-4 in place of an arbitrary hash function.
-/

namespace Cryptopy
open Model Spec

/-- SHA-1 on octet strings. -/
def sha1Octets (s : Bytes) : Bytes := beBytes 20 (sha1 (beValue s) (8 * s.length))

/-- The module `crypto.hash.sha1Hash`: blocks of 64 octets, digests of 20. -/
def sha1Module : HashLib where
  rawBlockSize := 64
  digestSize := 20
  H := sha1Octets

private theorem length_sha1 (s : Bytes) : (sha1Octets s).length = 20 := by simp [sha1Octets]

/-- C149: with keys of at most 64 octets `HMAC_SHA1` is HMAC-SHA-1 of RFC 2104 for every message, the MAC has 20
octets, and the pre-shared key of every pass phrase of 8 to 63 octets is PBKDF2 of RFC 2898 with HMAC-SHA-1, 4096
iterations and 32 octets. -/
theorem C149_standard (key data passPhrase ssid : Bytes) (hk : key.length ≤ 64)
    (hp : 8 ≤ passPhrase.length ∧ passPhrase.length ≤ 63) :
    hmacOnce sha1Module key data = .ok (hmac sha1Octets 64 key data) ∧
    (hmac sha1Octets 64 key data).length = 20 ∧
    dot11PassPhraseToPSK true (hmacPrf sha1Module) passPhrase ssid =
      .ok (Spec.pbkdf2 (hmac sha1Octets 64 passPhrase) 20 ssid 4096 32) := by
  refine ⟨C36_hmac_rfc2104 sha1Module key data hk, length_sha1 _, ?_⟩
  have h := C40_pbkdf2_hmac sha1Module passPhrase ssid 4096 32 (by decide) (by decide) length_sha1 hp.2 (by decide) (by decide)
  unfold dot11PassPhraseToPSK
  rw [if_pos (by omega), h]
  rfl
example := C149_standard (List.replicate 20 0x0b) [0x48, 0x69] (List.replicate 8 0x61) [0x62] (by decide) (by decide)

/-- C149: the 802.11 PRF with HMAC-SHA-1 of the standard library, for every number of bits. -/
theorem C149_prf (key A B : Bytes) (bits : Int) :
    prfDot11 (fun k m => .ok (hmac sha1Octets 64 k m)) key A B bits =
      if bits % 8 ≠ 0 ∨ 40960 ≤ bits then .error .value
      else .ok (prf80211 (hmac sha1Octets 64) key A B (bits / 8).toNat) := by
  have hm : ∀ k x, (hmac sha1Octets 64 k x).length = 20 := fun k x => length_sha1 _
  split
  · rename_i h
    exact (C44_prf_raises _ hm key A B bits .value).mpr ⟨rfl, by omega⟩
  · rename_i h
    by_cases h0 : 0 ≤ bits
    · exact (C43_prf_value _ hm key A B bits (by omega) h0 (by omega)).1
    · rw [C44_prf_negative _ key A B bits (by omega) (by omega)]
      have : (bits / 8).toNat = 0 := by omega
      simp [this, prf80211]

/-- C149: the two test cases of RFC 2202 with a key longer than a block (numbers 6 and 7, key of 80 octets 0xaa):
HMAC-SHA-1 of RFC 2104 gives the published digests and `HMAC_SHA1` does not. -/
theorem C149_rfc2202 :
    (hmac sha1Octets 64 (List.replicate 80 0xaa) "Test Using Larger Than Block-Size Key - Hash Key First".toUTF8.toList =
        beBytes 20 0xaa4ae5e15272d00e95705637ce8a3b55ed402112 ∧
      hmacOnce sha1Module (List.replicate 80 0xaa) "Test Using Larger Than Block-Size Key - Hash Key First".toUTF8.toList ≠
        .ok (beBytes 20 0xaa4ae5e15272d00e95705637ce8a3b55ed402112)) ∧
    (hmac sha1Octets 64 (List.replicate 80 0xaa)
        "Test Using Larger Than Block-Size Key and Larger Than One Block-Size Data".toUTF8.toList =
        beBytes 20 0xe8e99d0f45237d786d6bbaa7965c7808bbff1a91 ∧
      hmacOnce sha1Module (List.replicate 80 0xaa)
        "Test Using Larger Than Block-Size Key and Larger Than One Block-Size Data".toUTF8.toList ≠
        .ok (beBytes 20 0xe8e99d0f45237d786d6bbaa7965c7808bbff1a91)) := by
  decide +kernel

/-- C149: whenever a key of more than 64 octets gives the MAC of RFC 2104, two named octet strings, of 40 and 84
octets, are a collision of SHA-1. -/
theorem C149_long_key (key data : Bytes) (hk : 64 < key.length)
    (he : hmacOnce sha1Module key data = .ok (hmac sha1Octets 64 key data)) :
    Collision sha1Octets (hmacOuter sha1Octets (sha1Octets key) data)
      (hmacOuter sha1Octets (hmacKey sha1Octets 64 key) data) ∧
    (hmacOuter sha1Octets (sha1Octets key) data).length = 40 ∧
    (hmacOuter sha1Octets (hmacKey sha1Octets 64 key) data).length = 84 := by
  refine ⟨C37_hmac_long_key_collision sha1Module key data 20 hk (by decide) length_sha1 he, ?_, ?_⟩
  · simp [hmacOuter, length_xorBytes, length_sha1]
  · simp [hmacOuter, length_xorBytes, length_sha1, hmacKey, Nat.not_le.mpr hk]
/-- The first hypothesis; the second one, that the two agree, is what nobody knows an example of. -/
example : 64 < (List.replicate 80 (0xaa : UInt8)).length := by decide

end Cryptopy
