import Verif.Model.ChaCha

/-!
Model of `/repo/hash/michael.py`, `/repo/hash/tkip_mic.py` and `/repo/hash/tkip_key_mixing.py`.
-/

namespace Cryptopy.Model

/-- The block function `b`, `hash/michael.py` lines 56-66. -/
def michaelB (l r : Nat) : Nat × Nat :=
  let r := r ^^^ (((l <<< 17) &&& 0xffffffff) ||| ((l >>> 15) &&& 0x1ffff))
  let l := (l + r) &&& 0xffffffff
  let r := r ^^^ (((l &&& 0xff00ff00) >>> 8) ||| ((l &&& 0x00ff00ff) <<< 8))
  let l := (l + r) &&& 0xffffffff
  let r := r ^^^ (((l <<< 3) &&& 0xffffffff) ||| ((l >>> 29) &&& 0x7))
  let l := (l + r) &&& 0xffffffff
  let r := r ^^^ (((l <<< 30) &&& 0xffffffff) ||| ((l >>> 2) &&& 0x3fffffff))
  let l := (l + r) &&& 0xffffffff
  (l, r)

/-- A `Michael` object: the attribute `_key`, which does not exist before a key is set.  `hash/michael.py` lines 15-32. -/
structure Michael where
  key : Option (Nat × Nat)

/-- `unpack('<I', s)[0]`; `struct.error` (here `PyErr.exception`) unless there are four octets.  `hash/michael.py` line 43. -/
def unpackI (s : Bytes) : Py Nat :=
  match s with
  | [a, b, c, d] => .ok (a.toNat + b.toNat * 256 + c.toNat * 65536 + d.toNat * 16777216)
  | _ => .error .exception

/-- `Michael.setKey`, `hash/michael.py` lines 29-32. -/
def Michael.setKey (_ : Michael) (key : Bytes) : Py Michael :=
  if key.length = 8 then
    match unpackI (key.take 4), unpackI (key.drop 4) with
    | .ok l, .ok r => .ok ⟨some (l, r)⟩
    | .error e, _ => .error e
    | _, .error e => .error e
  else .error .assertion

/-- `Michael.__init__`, `hash/michael.py` lines 16-24. -/
def Michael.new (key : Option Bytes) : Py Michael :=
  match key with
  | some k => Michael.setKey ⟨none⟩ k
  | none => .ok ⟨none⟩

/-- `paddedData`, `hash/michael.py` lines 39-40. -/
def michaelPadded (data : Bytes) : Bytes :=
  data ++ [0x5a] ++ List.replicate (7 - data.length % 4) 0

/-- The loop, `hash/michael.py` lines 42-45, with `k` blocks left from block `i`. -/
def michaelLoop (padded : Bytes) : Nat → Nat → Nat × Nat → Py (Nat × Nat)
  | 0, _, lr => .ok lr
  | k + 1, i, (l, r) =>
    match unpackI ((padded.take (i * 4 + 4)).drop (i * 4)) with
    | .error e => .error e
    | .ok m =>
      let l := l ^^^ m
      michaelLoop padded k (i + 1) (michaelB l r)

/-- `Michael.hash`, `hash/michael.py` lines 37-47. -/
def Michael.hash (o : Michael) (data : Bytes) : Py Bytes :=
  match o.key with
  | none => .error .attribute
  | some lr =>
    let fullBlocks := data.length / 4
    match michaelLoop (michaelPadded data) (fullBlocks + 2) 0 lr with
    | .error e => .error e
    | .ok (l, r) => .ok (packLE32 l ++ packLE32 r)

/-- `Michael.__call__`, `hash/michael.py` lines 34-35. -/
def Michael.call (o : Michael) (data : Bytes) : Py Bytes := o.hash data

/-- `Michael.update`, `hash/michael.py` lines 49-50: a string exception. -/
def Michael.update (_ : Michael) (_data : Bytes) : Py Unit := .error .stringRaise

/-- `Michael.digest`, `hash/michael.py` lines 51-52. -/
def Michael.digest (_ : Michael) : Py Bytes := .error .stringRaise

/-- `Michael.final`, `hash/michael.py` lines 53-54. -/
def Michael.final (_ : Michael) (_data : Bytes) : Py Bytes := .error .stringRaise

/-- The values of the attribute `version` that the code distinguishes.  `hash/tkip_mic.py` lines 18-33. -/
inductive MicVersion
  | D3
  | D2
  | other
  deriving DecidableEq

/-- A `TKIP_MIC` object, `hash/tkip_mic.py` lines 18-21. -/
structure TkipMic where
  version : MicVersion
  base : Michael

/-- `TKIP_MIC.hash`, `hash/tkip_mic.py` lines 23-38. -/
def TkipMic.hash (o : TkipMic) (sa da : Bytes) (priority : Int) (data : Bytes) : Py Bytes :=
  if ¬ (0 ≤ priority ∧ priority ≤ 15) then .error .assertion
  else if ¬ (sa.length = 6 ∧ da.length = 6) then .error .assertion
  else
    match o.version with
    | .D3 => o.base.hash (da ++ sa ++ [UInt8.ofNat priority.toNat] ++ List.replicate 3 0 ++ data)
    | .D2 => o.base.hash (da ++ sa ++ data)
    | .other => .error .stringRaise

/-- Calling a `TKIP_MIC`: the inherited `__call__` passes one argument to `hash`, which needs four:
`TypeError`.  `hash/michael.py` lines 34-35, `hash/tkip_mic.py` line 23. -/
def TkipMic.call (_ : TkipMic) (_data : Bytes) : Py Bytes := .error .type

/-! ### TKIP key mixing -/

/-- `k2` and `k3` for an S-box value `k`, `hash/tkip_key_mixing.py` lines 21-26. -/
def tkipK2 (k : Nat) : Nat := if k &&& 0x80 ≠ 0 then (k <<< 1) ^^^ 0x11b else k <<< 1
/-- See `tkipK2`.  `hash/tkip_key_mixing.py` lines 21-26. -/
def tkipK3 (k : Nat) : Nat := k ^^^ tkipK2 k

/-- `tkipSbox[0][i]`, `hash/tkip_key_mixing.py` line 27; `sbox` is the imported `Sbox`. -/
def tkipT0 (sbox : Nat → Nat) (i : Nat) : Nat := (tkipK2 (sbox i) <<< 8) ^^^ tkipK3 (sbox i)
/-- `tkipSbox[1][i]`, `hash/tkip_key_mixing.py` line 28. -/
def tkipT1 (sbox : Nat → Nat) (i : Nat) : Nat := (tkipK3 (sbox i) <<< 8) ^^^ tkipK2 (sbox i)

/-- `S`, `hash/tkip_key_mixing.py` lines 10-12. -/
def tkipS (sbox : Nat → Nat) (word : Nat) : Nat :=
  tkipT0 sbox (word &&& 0xFF) ^^^ tkipT1 sbox ((word >>> 8) &&& 0xFF)

/-- `rotR1`, `hash/tkip_key_mixing.py` lines 30-32. -/
def rotR1 (v : Nat) : Nat := ((v >>> 1) &&& 0x7FFF) ^^^ ((v &&& 1) <<< 15)

/-- `v[i]` for a list of octets as integers; the sizes are checked where the lists are made.
`hash/tkip_key_mixing.py` lines 87-130. -/
def at' (v : Bytes) (i : Nat) : Nat := (v.getD i 0).toNat

/-- The list `p1k` of five integers.  `hash/tkip_key_mixing.py` lines 89-102. -/
structure P1K where
  p0 : Nat
  p1 : Nat
  p2 : Nat
  p3 : Nat
  p4 : Nat
  deriving DecidableEq

/-- One pass of the loop of `phase1KeyMixing`, `hash/tkip_key_mixing.py` lines 95-101. -/
def phase1Round (S : Nat → Nat) (tk : Bytes) (i : Nat) (p : P1K) : P1K :=
  let j := 2 * (i &&& 1)
  let p0 := (p.p0 + S (p.p4 ^^^ (at' tk (j + 1) * 256 + at' tk (j + 0)))) &&& 0xFFFF
  let p1 := (p.p1 + S (p0 ^^^ (at' tk (j + 5) * 256 + at' tk (j + 4)))) &&& 0xFFFF
  let p2 := (p.p2 + S (p1 ^^^ (at' tk (j + 9) * 256 + at' tk (j + 8)))) &&& 0xFFFF
  let p3 := (p.p3 + S (p2 ^^^ (at' tk (j + 13) * 256 + at' tk (j + 12)))) &&& 0xFFFF
  let p4 := (p.p4 + S (p3 ^^^ (at' tk (j + 1) * 256 + at' tk j)) + i) &&& 0xFFFF
  ⟨p0, p1, p2, p3, p4⟩

/-- `phase1KeyMixing`, `hash/tkip_key_mixing.py` lines 87-102. -/
def phase1KeyMixing (S : Nat → Nat) (tk ta pn : Bytes) : P1K :=
  (List.range 8).foldl (fun p i => phase1Round S tk i p)
    ⟨at' pn 3 * 256 + at' pn 2, at' pn 5 * 256 + at' pn 4, at' ta 1 * 256 + at' ta 0,
      at' ta 3 * 256 + at' ta 2, at' ta 5 * 256 + at' ta 4⟩

/-- The list `ppk` of six integers.  `hash/tkip_key_mixing.py` lines 107-115. -/
structure PPK where
  w0 : Nat
  w1 : Nat
  w2 : Nat
  w3 : Nat
  w4 : Nat
  w5 : Nat

/-- The mixing of `ppk`, `hash/tkip_key_mixing.py` lines 110-122. -/
def ppkMix (S : Nat → Nat) (tk : Bytes) (p : PPK) : PPK :=
  let w0 := (p.w0 + S (p.w5 ^^^ (at' tk 1 * 256 + at' tk 0))) &&& 0xFFFF
  let w1 := (p.w1 + S (w0 ^^^ (at' tk 3 * 256 + at' tk 2))) &&& 0xFFFF
  let w2 := (p.w2 + S (w1 ^^^ (at' tk 5 * 256 + at' tk 4))) &&& 0xFFFF
  let w3 := (p.w3 + S (w2 ^^^ (at' tk 7 * 256 + at' tk 6))) &&& 0xFFFF
  let w4 := (p.w4 + S (w3 ^^^ (at' tk 9 * 256 + at' tk 8))) &&& 0xFFFF
  let w5 := (p.w5 + S (w4 ^^^ (at' tk 11 * 256 + at' tk 10))) &&& 0xFFFF
  let w0 := (w0 + rotR1 (w5 ^^^ (at' tk 13 * 256 + at' tk 12))) &&& 0xFFFF
  let w1 := (w1 + rotR1 (w0 ^^^ (at' tk 15 * 256 + at' tk 14))) &&& 0xFFFF
  let w2 := (w2 + rotR1 w1) &&& 0xFFFF
  let w3 := (w3 + rotR1 w2) &&& 0xFFFF
  let w4 := (w4 + rotR1 w3) &&& 0xFFFF
  let w5 := (w5 + rotR1 w4) &&& 0xFFFF
  ⟨w0, w1, w2, w3, w4, w5⟩

/-- `phase2KeyMixing`, `hash/tkip_key_mixing.py` lines 104-133. -/
def phase2KeyMixing (S : Nat → Nat) (tk : Bytes) (p1k : P1K) (pn : Bytes) : Py Bytes :=
  let p := ppkMix S tk
    ⟨p1k.p0, p1k.p1, p1k.p2, p1k.p3, p1k.p4, p1k.p4 + at' pn 1 * 256 + at' pn 0⟩
  let rc4Key : List Nat :=
    [at' pn 0, (at' pn 0 ||| 0x20) &&& 0x7F, at' pn 1,
     0xFF &&& ((p.w5 ^^^ (at' tk 1 * 256 + at' tk 0)) >>> 1),
     p.w0 &&& 0xff, (p.w0 >>> 8) &&& 0xff, p.w1 &&& 0xff, (p.w1 >>> 8) &&& 0xff,
     p.w2 &&& 0xff, (p.w2 >>> 8) &&& 0xff, p.w3 &&& 0xff, (p.w3 >>> 8) &&& 0xff,
     p.w4 &&& 0xff, (p.w4 >>> 8) &&& 0xff, p.w5 &&& 0xff, (p.w5 >>> 8) &&& 0xff]
  rc4Key.mapM fun n : Nat => Py.chr (n : Int)

/-- A `TKIP_Mixer` object, `hash/tkip_key_mixing.py` lines 34-51.  `pnBytes` and `pn` have the same
contents; `phase1Key` does not exist before it is first computed. -/
structure Mixer where
  tk : Option Bytes
  ta : Option Bytes
  pn : Bytes
  upper4 : Bytes
  phase1Key : Option P1K

/-- `TKIP_Mixer.setPnBytes`, `hash/tkip_key_mixing.py` lines 68-72. -/
def Mixer.setPnBytes (o : Mixer) (pnBytes : Bytes) : Mixer × Py Unit :=
  if pnBytes.length = 6 then ({ o with pn := pnBytes }, .ok ()) else (o, .error .assertion)

/-- `TKIP_Mixer.setKey`, `hash/tkip_key_mixing.py` lines 53-59. -/
def Mixer.setKey (S : Nat → Nat) (o : Mixer) (key : Bytes) : Mixer × Py Unit :=
  if key.length ≠ 16 then (o, .error .stringRaise)
  else
    let o := { o with tk := some key }
    match o.ta with
    | some ta => ({ o with phase1Key := some (phase1KeyMixing S key ta o.pn) }, .ok ())
    | none => (o, .ok ())

/-- `TKIP_Mixer.setTA`, `hash/tkip_key_mixing.py` lines 61-66. -/
def Mixer.setTA (S : Nat → Nat) (o : Mixer) (ta : Bytes) : Mixer × Py Unit :=
  if ta.length ≠ 6 then (o, .error .stringRaise)
  else
    let o := { o with ta := some ta }
    match o.tk with
    | some tk => ({ o with phase1Key := some (phase1KeyMixing S tk ta o.pn) }, .ok ())
    | none => (o, .ok ())

/-- `TKIP_Mixer.newKey`, `hash/tkip_key_mixing.py` lines 74-85. -/
def Mixer.newKey (S : Nat → Nat) (o : Mixer) (pnBytes : Bytes) : Mixer × Py Bytes :=
  match o.ta, o.tk with
  | none, _ => (o, .error .assertion)
  | some _, none => (o, .error .assertion)
  | some ta, some tk =>
    match o.setPnBytes pnBytes with
    | (o, .error e) => (o, .error e)
    | (o, .ok _) =>
      let o :=
        if Py.sliceFrom o.pn (-4) ≠ o.upper4 then
          { o with upper4 := Py.sliceFrom pnBytes (-4),
                   phase1Key := some (phase1KeyMixing S tk ta o.pn) }
        else o
      match o.phase1Key with
      | none => (o, .error .attribute)
      | some p1k => (o, phase2KeyMixing S tk p1k o.pn)

/-- `if tk1 != None : self.setKey(tk1)`, `hash/tkip_key_mixing.py` lines 48-49. -/
def Mixer.setKeyOpt (S : Nat → Nat) (o : Mixer) : Option Bytes → Mixer × Py Unit
  | some k => o.setKey S k
  | none => (o, .ok ())

/-- The same for the address, `hash/tkip_key_mixing.py` lines 50-51. -/
def Mixer.setTAOpt (S : Nat → Nat) (o : Mixer) : Option Bytes → Mixer × Py Unit
  | some t => o.setTA S t
  | none => (o, .ok ())

/-- `TKIP_Mixer.__init__`, `hash/tkip_key_mixing.py` lines 38-51. -/
def Mixer.new (S : Nat → Nat) (tk1 ta : Option Bytes) (pnBytes : Bytes) : Py Mixer :=
  match Mixer.setPnBytes ⟨none, none, [], [], none⟩ pnBytes with
  | (_, .error e) => .error e
  | (o, .ok _) =>
    let o := { o with upper4 := Py.sliceFrom o.pn (-4) }
    match o.setKeyOpt S tk1 with
    | (_, .error e) => .error e
    | (o, .ok _) =>
      match o.setTAOpt S ta with
      | (_, .error e) => .error e
      | (o, .ok _) => .ok o

/-- One method call on a mixer.  The methods of the class in `hash/tkip_key_mixing.py` lines 34-85. -/
inductive MixOp
  | setKey (key : Bytes)
  | setTA (ta : Bytes)
  | newKey (pn : Bytes)
  | setPn (pn : Bytes)

/-- The effect and the result of one method call; a method without result gives `none`.
The methods of the class in `hash/tkip_key_mixing.py` lines 34-85. -/
def Mixer.step (S : Nat → Nat) (o : Mixer) : MixOp → Mixer × Py (Option Bytes)
  | .setKey k => let r := o.setKey S k; (r.1, r.2.map fun _ => none)
  | .setTA t => let r := o.setTA S t; (r.1, r.2.map fun _ => none)
  | .newKey p => let r := o.newKey S p; (r.1, r.2.map some)
  | .setPn p => let r := o.setPnBytes p; (r.1, r.2.map fun _ => none)

/-- A history of method calls: the list of results.  The methods of the class in `hash/tkip_key_mixing.py` lines 34-85. -/
def Mixer.run (S : Nat → Nat) : Mixer → List MixOp → List (Py (Option Bytes))
  | _, [] => []
  | o, op :: ops => (o.step S op).2 :: Mixer.run S (o.step S op).1 ops

end Cryptopy.Model
