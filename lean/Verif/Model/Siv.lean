import Verif.Model.Encoding

/-!
Model of `/repo/cipher/aes_cmac.py` and `/repo/cipher/aes_siv.py`.

The block cipher module (`Crypto.Cipher.AES`, or the `CIPH` argument) is external.  It is a
`CipherLib`: which keys `new` accepts (otherwise `ValueError`), the `block_size` attribute and the
encryption of one block.
-/

namespace Cryptopy.Model

/-- An external block cipher module.  Imported in `cipher/aes_cmac.py` line 16 and `cipher/aes_siv.py` line 22. -/
structure CipherLib where
  /-- does `new(key)` accept the key (otherwise it raises `ValueError`) -/
  keyOk : Bytes → Bool
  /-- the attribute `block_size` -/
  blockSize : Nat
  /-- `new(key).encrypt(block)` -/
  enc : Bytes → Bytes → Bytes

/-- The integer doubling step, `cipher/aes_cmac.py` lines 47-50 and 52-55 (also
`cipher/aes_siv.py` lines 31-34 with the branches swapped). -/
def dblInt (d : Nat) : Nat :=
  if d &&& 0x80000000000000000000000000000000 = 0 then d <<< 1
  else ((d <<< 1) &&& 0xFFFFFFFFFFFFFFFFFFFFFFFFFFFFFFFF) ^^^ 0x87

/-- `subkey`, `cipher/aes_cmac.py` lines 39-59. -/
def subkey (C : CipherLib) (key : Bytes) : Py (Bytes × Bytes) :=
  if C.keyOk key then
    if C.blockSize = 16 then
      let el := stringToInt (C.enc key (List.replicate C.blockSize 0))
      let k1 := dblInt el
      let k2 := dblInt k1
      match intToString k1 none with
      | .error e => .error e
      | .ok s1 =>
        match intToString k2 none with
        | .error e => .error e
        | .ok s2 => .ok (s1, s2)
    else .error .assertion
  else .error .value

/-- `pad`, `cipher/aes_cmac.py` lines 61-64 and `cipher/aes_siv.py` lines 37-40
(always called with the default block size). -/
def pad (s : Bytes) : Bytes :=
  let padLength : Int := 16 - s.length
  s ++ [0x80] ++ Py.repeat (padLength - 1) 0

/-- The chaining loop, `cipher/aes_cmac.py` lines 34-35, from index `i` on with `k` rounds left. -/
def cmacLoop (C : CipherLib) (key Mp : Bytes) : Nat → Nat → Bytes → Py Bytes
  | _, 0, x => .ok x
  | i, k + 1, x =>
    match xor x ((Mp.drop (i * 16)).take 16) with
    | .error e => .error e
    | .ok y => cmacLoop C key Mp (i + 1) k (C.enc key y)

/-- `aes_cmac(key, M, CIPH)`, `cipher/aes_cmac.py` lines 19-37.  `aes` is the module level `AES`,
which `subkey(key)` uses whatever `CIPH` is. -/
def aesCmac (aes ciph : CipherLib) (key M : Bytes) : Py Bytes :=
  if ciph.keyOk key then
    if ciph.blockSize = 16 then
      match subkey aes key with
      | .error e => .error e
      | .ok (k1, k2) =>
        let blocks := M.length / 16
        let leftover := M.length % 16
        let mp : Py Bytes :=
          if leftover = 0 ∧ blocks > 0 then
            match xor (M.drop ((blocks - 1) * 16)) k1 with
            | .error e => .error e
            | .ok y => .ok (M.take ((blocks - 1) * 16) ++ y)
          else
            match xor (pad (M.drop (blocks * 16))) k2 with
            | .error e => .error e
            | .ok y => .ok (M.take (blocks * 16) ++ y)
        match mp with
        | .error e => .error e
        | .ok Mp => cmacLoop ciph key Mp 0 (Mp.length / 16) (List.replicate 16 0)
    else .error .assertion
  else .error .value

/-- `dbl`, `cipher/aes_siv.py` lines 27-35. -/
def dbl (s : Bytes) : Py Bytes :=
  if s.length = 16 then
    let d := stringToInt s
    let d' := if d &&& 0x80000000000000000000000000000000 ≠ 0 then
        ((d <<< 1) &&& 0xFFFFFFFFFFFFFFFFFFFFFFFFFFFFFFFF) ^^^ 0x87
      else d <<< 1
    intToString d' (some 16)
  else .error .assertion

/-- The loop over all but the last component, `cipher/aes_siv.py` lines 49-50. -/
def s2vLoop (aes : CipherLib) (key : Bytes) : List Bytes → Bytes → Py Bytes
  | [], d => .ok d
  | s :: rest, d =>
    match dbl d with
    | .error e => .error e
    | .ok dd =>
      match aesCmac aes aes key s with
      | .error e => .error e
      | .ok m =>
        match xor dd m with
        | .error e => .error e
        | .ok d' => s2vLoop aes key rest d'

/-- `s2v`, `cipher/aes_siv.py` lines 42-56. -/
def s2v (aes : CipherLib) (key : Bytes) (adList : List Bytes) : Py Bytes :=
  match adList.getLast? with
  | none => aesCmac aes aes key (List.replicate 15 0 ++ [1])
  | some last =>
    match aesCmac aes aes key (List.replicate 16 0) with
    | .error e => .error e
    | .ok d0 =>
      match s2vLoop aes key adList.dropLast d0 with
      | .error e => .error e
      | .ok d =>
        let t : Py Bytes :=
          if last.length ≥ 16 then
            match xor (Py.sliceFrom last (-16)) d with
            | .error e => .error e
            | .ok y => .ok (Py.sliceTo last (-16) ++ y)
          else
            match dbl d with
            | .error e => .error e
            | .ok dd => xor dd (pad last)
        match t with
        | .error e => .error e
        | .ok t => aesCmac aes aes key t

/-- The counter block number `i`, `int_to_string(q+i, padto=blksize)` with
`q = string_to_int(iv) & 0xffffffffffffffff7fffffff7fffffff`,
`cipher/aes_siv.py` lines 66, 71, 84, 89. -/
def sivCounterBlock (iv : Bytes) (i : Nat) : Py Bytes :=
  intToString ((stringToInt iv &&& 0xffffffffffffffff7fffffff7fffffff) + i : Nat) (some 16)

/-- The key stream loop, `cipher/aes_siv.py` lines 70-71 and 88-89, from counter `i` with `k`
blocks left. -/
def sivStream (aes : CipherLib) (key2 iv : Bytes) : Nat → Nat → Bytes → Py Bytes
  | _, 0, x => .ok x
  | i, k + 1, x =>
    match sivCounterBlock iv i with
    | .error e => .error e
    | .ok b => sivStream aes key2 iv (i + 1) k (x ++ aes.enc key2 b)

/-- `siv_encrypt`, `cipher/aes_siv.py` lines 58-74. -/
def sivEncrypt (aes : CipherLib) (key pt : Bytes) (adList : List Bytes) : Py Bytes :=
  let keysize := key.length / 2
  let key1 := key.take keysize
  let key2 := Py.sliceFrom key (-(keysize : Int))
  match s2v aes key1 (adList ++ [pt]) with
  | .error e => .error e
  | .ok iv =>
    if aes.keyOk key2 then
      match sivStream aes key2 iv 0 ((pt.length + 16 - 1) / 16) [] with
      | .error e => .error e
      | .ok x =>
        match xor pt (x.take pt.length) with
        | .error e => .error e
        | .ok ct => .ok (iv ++ ct)
    else .error .value

/-- `siv_decrypt`, `cipher/aes_siv.py` lines 76-97. -/
def sivDecrypt (aes : CipherLib) (key c : Bytes) (adList : List Bytes) : Py Bytes :=
  let iv := c.take 16
  let ct := c.drop 16
  let keysize := key.length / 2
  let key1 := key.take keysize
  let key2 := Py.sliceFrom key (-(keysize : Int))
  if aes.keyOk key2 then
    match sivStream aes key2 iv 0 ((ct.length + 16 - 1) / 16) [] with
    | .error e => .error e
    | .ok x =>
      match xor ct (x.take ct.length) with
      | .error e => .error e
      | .ok pt =>
        match s2v aes key1 (adList ++ [pt]) with
        | .error e => .error e
        | .ok t => if t = iv then .ok pt else .error .stringRaise
  else .error .value

/-- The object wrapper `AES_SIV`, `cipher/aes_siv.py` lines 99-108, holds only the key. -/
structure AesSiv where
  key : Bytes

/-- `AES_SIV.encrypt`, `cipher/aes_siv.py` lines 104-105. -/
def AesSiv.encrypt (aes : CipherLib) (o : AesSiv) (pt : Bytes) (adList : List Bytes) : Py Bytes :=
  sivEncrypt aes o.key pt adList

/-- `AES_SIV.decrypt`, `cipher/aes_siv.py` lines 107-108. -/
def AesSiv.decrypt (aes : CipherLib) (o : AesSiv) (ct : Bytes) (adList : List Bytes) : Py Bytes :=
  sivDecrypt aes o.key ct adList

end Cryptopy.Model
