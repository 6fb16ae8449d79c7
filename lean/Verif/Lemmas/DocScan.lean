import Verif.Lemmas.PseudoCheck

/-!
The search of `PseudoScan` for the strong pseudoprimes to the base 2 between 10^7 and 2 * 10^7.
-/

namespace Cryptopy.PseudoScan

/-- The composite numbers from 10000001 to 19999999 without factor 2, 3, 5, 7, 11 that are strong probable primes to the
base 2, each with a factor. -/
def pseudo2 : List (Nat × Nat) :=
  [(10323769, 349), (10386241, 1861), (10425511, 2441), (10610063, 2351), (10712857, 2143), (10763653, 409),
   (10974881, 1913), (11081459, 227), (11335501, 1321), (11541307, 1699), (11585293, 2153), (11777599, 127),
   (12263131, 811), (12327121, 3511), (13057787, 467), (13216141, 29), (13338371, 3163), (13421773, 53),
   (13446253, 509), (13500313, 103), (13635289, 739), (13694761, 2617), (13747361, 2141), (14179537, 2917),
   (14324473, 1693), (14709241, 631), (14794081, 2221), (14865121, 241), (15101893, 829), (15139199, 2383),
   (15188557, 1949), (15220951, 151), (15247621, 61), (15479777, 587), (15510041, 29), (15603391, 89),
   (15802681, 1103), (15976747, 3739), (15978007, 1999), (16070429, 1637), (16132321, 613), (16324001, 2333),
   (16360381, 541), (16705021, 1669), (16773121, 433), (16822081, 397), (16853077, 2053), (16879501, 1453),
   (17116837, 2069), (17134043, 1097), (17208601, 1151), (17327773, 2633), (17375249, 3229), (17509501, 41),
   (17585969, 173), (18073817, 3881), (18366937, 1429), (18443701, 3037), (18454921, 373), (18535177, 2153),
   (18653353, 2857), (18740971, 1531), (19328653, 3109), (19404139, 2011), (19471033, 883), (19607561, 587)]

/-- Divide `o` by `f` as long as 2 to the quotient is 1 modulo `p`. -/
def strip (p f : Nat) : Nat → Nat → Nat
  | 0, o => o
  | k + 1, o => bif Nat.beq (Nat.mod o f) 0 && Nat.beq (pwg 2 p (Nat.div o f)) 1 then
      Ecpp.force (Nat.div o f) (strip p f k) else o

/-- A candidate for the order of 2 modulo `p`; nothing is proved about it, `ordOk` checks it. -/
def ordGuess (p : Nat) : Nat :=
  Ecpp.force (primes173.foldl (fun o f => Ecpp.force o (strip p f 13)) (p - 1)) fun o =>
  Ecpp.force (Nat.div o (Nat.gcd o primorialPow)) fun c =>
    bif Nat.beq (pwg 2 p (Nat.div o c)) 1 then Nat.div o c else o

/-- Excused: numbers outside the range, numbers failing the strong test, and those in the list. -/
def docEx (n : Nat) : Bool :=
  Ecpp.force n fun n => Nat.blt n 10000001 || strongFails 2 n || pseudo2.any fun x => Nat.beq x.1 n

/-- The product of the primes below `p`, up to 173. -/
def primesBelow (p : Nat) : Nat := (primes173.filter fun q => Nat.blt q p).prod

/-- The search for one `p`, `m` running through the numbers that are 1 modulo the order of 2. -/
noncomputable def docP (p : Nat) : Bool :=
  Bool.rec true (Ecpp.force (ordGuess p) fun o => Ecpp.force (primesBelow p) fun P =>
    Ecpp.force (Nat.div (Nat.max p (Nat.div 10000000 p)) o) fun k =>
    Nat.ble 1 o && ordOk 2 p o && (Nat.beq k 0 || Nat.blt (1 + (k - 1) * o) p || Nat.blt (p * (1 + (k - 1) * o)) 10000001) &&
      Ecpp.force (1 + k * o) (scan docEx 20000000 P p o 200000))
    (Nat.beq (Nat.gcd p primorial173) 1 || primes173.any fun q => Nat.beq q p)

/-- `docP` for `c` numbers from `p` on. -/
noncomputable def docFrom (c : Nat) : Nat → Bool :=
  Nat.rec (fun _ => true) (fun _ ih p => Nat.rec false (fun r _ => Bool.rec false (ih (Nat.succ r)) (docP p))
    (Nat.succ p)) c

theorem docFrom_spec (c : Nat) : ∀ p, docFrom c p = true → ∀ q, p ≤ q → q < p + c → docP q = true := by
  induction c with
  | zero => intro p _ q h1 h2; omega
  | succ c ih =>
    intro p h q h1 h2
    have e : docFrom (c + 1) p = Bool.rec false (docFrom c (p + 1)) (docP p) := rfl
    rw [e] at h
    cases hp : docP p
    · rw [hp] at h; cases h
    · rw [hp] at h
      rcases Nat.eq_or_lt_of_le h1 with rfl | h3
      · exact hp
      · exact ih (p + 1) h q h3 (by omega)

set_option maxRecDepth 100000
private theorem doc0 : docFrom 4 13 = true := by decide +kernel
private theorem doc1 : docFrom 2 17 = true := by decide +kernel
private theorem doc2 : docFrom 4 19 = true := by decide +kernel
private theorem doc3 : docFrom 8 23 = true := by decide +kernel
private theorem doc4 : docFrom 6 31 = true := by decide +kernel
private theorem doc5 : docFrom 34 37 = true := by decide +kernel
private theorem doc6 : docFrom 68 71 = true := by decide +kernel
private theorem doc7 : docFrom 2592 139 = true := by decide +kernel
private theorem doc8 : docFrom 1742 2731 = true := by decide +kernel

theorem docP_all (p : Nat) (h1 : 13 ≤ p) (h2 : p < 4473) : docP p = true := by
  rcases Nat.lt_or_ge p 17 with h | g0
  · exact docFrom_spec _ _ doc0 p h1 h
  rcases Nat.lt_or_ge p 19 with h | g1
  · exact docFrom_spec _ _ doc1 p g0 h
  rcases Nat.lt_or_ge p 23 with h | g2
  · exact docFrom_spec _ _ doc2 p g1 h
  rcases Nat.lt_or_ge p 31 with h | g3
  · exact docFrom_spec _ _ doc3 p g2 h
  rcases Nat.lt_or_ge p 37 with h | g4
  · exact docFrom_spec _ _ doc4 p g3 h
  rcases Nat.lt_or_ge p 71 with h | g5
  · exact docFrom_spec _ _ doc5 p g4 h
  rcases Nat.lt_or_ge p 139 with h | g6
  · exact docFrom_spec _ _ doc6 p g5 h
  rcases Nat.lt_or_ge p 2731 with h | g7
  · exact docFrom_spec _ _ doc7 p g6 h
  exact docFrom_spec _ _ doc8 p g7 h2

end Cryptopy.PseudoScan
