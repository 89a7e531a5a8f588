import Verif.Model.NetworkRows
import Verif.Props.NetworkCert

/-!
# What the kernel checks about the shipped river network

For every row of the routing order and every id one Boolean check, written with the operations the kernel computes on
literals.  The checks are run in `Verif.Props.NetworkCheck1` to `NetworkCheck4` and used in `Verif.Props.ShippedNetwork`.
-/

namespace WG

noncomputable def rowR (k : ℕ) : ℕ :=
  Nat.mod (Nat.div (routingData.get (Nat.div k 64)) (Nat.pow 10 (Nat.mul 22 (Nat.sub 63 (Nat.mod k 64))))) 10000000000000000000000

noncomputable def certR (c : ℕ) : ℕ :=
  Nat.mod (Nat.shiftRight (networkCert.get (Nat.div c 1000)) (Nat.mul 24 (Nat.mod c 1000))) 16777216

noncomputable def coordR (a : ℕ) : ℕ :=
  Nat.mod (Nat.div (arcidData.get (Nat.div (Nat.sub a 1) 64)) (Nat.pow 10 (Nat.mul 10 (Nat.sub 63 (Nat.mod (Nat.sub a 1) 64))))) 10000000000

noncomputable def upR (a : ℕ) : List ℕ :=
  (fun m => upEntries (Nat.mod m 10) (Nat.div m 10)) (upSkip (upstreamData.get (Nat.div (Nat.sub a 1) 16)) (Nat.mod (Nat.sub a 1) 16))

/-- The position of an id in the routing order, from its coordinates. -/
noncomputable def posR (a : ℕ) : ℕ :=
  (fun x => Nat.div (certR (Nat.add (Nat.mul 1000 (Nat.div (Nat.sub 17975 (Nat.mod x 100000)) 50))
    (Nat.div (Nat.div x 100000) 50))) 128) (coordR a)

noncomputable def memR (u : ℕ) (l : List ℕ) : Bool := List.rec false (fun x _ b => cond (Nat.beq x u) true b) l

/-- The outflow cell `olat`, `olon` is the cell `lat`, `lon` or one of its eight neighbours; the grid closes in longitude. -/
noncomputable def adjR (lat lon olat olon : ℕ) : Bool :=
  cond (Nat.ble lat (Nat.succ olat)) (cond (Nat.ble olat (Nat.succ lat))
    (cond (Nat.beq olon lon) true (cond (Nat.beq olon (Nat.mod (Nat.succ lon) 720)) true
      (Nat.beq lon (Nat.mod (Nat.succ olon) 720)))) false) false

noncomputable def drainR (k r c i o j p : ℕ) : Bool :=
  cond (Nat.blt k p) (cond (Nat.blt p 67420) (cond (Nat.blt (Nat.mod i 128) (Nat.mod j 128))
    (cond (Nat.beq (Nat.div (rowR p) 100000000000) (Nat.mod r 100000000000))
    (cond (Nat.blt 0 (Nat.div o 1000)) (cond (Nat.blt 0 (Nat.mod o 1000))
    (cond (adjR (Nat.div c 1000) (Nat.mod c 1000) (Nat.div o 1000) (Nat.mod o 1000))
    (memR (Nat.div r 100000000000000000) (upR (Nat.mod (Nat.div r 1000000) 100000)))
    false) false) false) false) false) false) false

noncomputable def rowCheck1 (k r c i : ℕ) : Bool :=
  cond (Nat.beq (Nat.div i 128) k) (cond (Nat.blt (Nat.div c 1000) 360) (cond (Nat.blt (Nat.mod c 1000) 720)
    (cond (Nat.blt 0 (Nat.div r 100000000000000000)) (cond (Nat.ble (Nat.div r 100000000000000000) 67420)
    (cond (Nat.beq (Nat.add (coordR (Nat.div r 100000000000000000)) (Nat.mul 50 (Nat.div c 1000)))
      (Nat.add (Nat.mul 5000000 (Nat.mod c 1000)) 2517975))
    (cond (Nat.beq (Nat.mod r 100000000000) 0) true
      ((fun j => drainR k r c i (Nat.mod r 1000000) j (Nat.div j 128)) (certR (Nat.mod r 1000000))))
    false) false) false) false) false) false

/-- The check of row `k` of the routing order. -/
noncomputable def rowCheck (k : ℕ) : Bool :=
  (fun r => (fun c => rowCheck1 k r c (certR c)) (Nat.mod (Nat.div r 100000000000) 1000000)) (rowR k)

/-- The check of the id `a + 1`. -/
noncomputable def arcCheck (b : ℕ) : Bool :=
  (fun a => (fun k => cond (Nat.blt k 67420) (cond (Nat.beq (Nat.div (rowR k) 100000000000000000) a)
    (List.rec true (fun u _ t => cond ((fun j => cond (Nat.blt j 67420) ((fun r =>
        cond (Nat.beq (Nat.div r 100000000000000000) u) (Nat.beq (Nat.mod (Nat.div r 1000000) 100000) a) false) (rowR j)) false)
      (posR u)) t false) (upR a)) false) false) (posR a)) (Nat.succ b)

/-- A check for `n` numbers from `b` on. -/
noncomputable def checkFrom (f : ℕ → Bool) (b n : ℕ) : Bool := Nat.rec true (fun m t => cond (f (Nat.add b m)) t false) n

theorem checkFrom_spec (f : ℕ → Bool) (b n : ℕ) (h : checkFrom f b n = true) (k : ℕ) (h1 : b ≤ k) (h2 : k < b + n) : f k = true := by
  induction n with
  | zero => omega
  | succ n ih =>
    have h' : (f (b + n) && checkFrom f b n) = true := by
      rw [← Bool.cond_false_right]; exact h
    rw [Bool.and_eq_true] at h'
    by_cases hk : k = b + n
    · rw [hk]; exact h'.1
    · exact ih h'.2 (by omega)

end WG
