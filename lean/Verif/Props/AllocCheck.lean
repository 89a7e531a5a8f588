import Verif.Props.SurfaceCheck
import Verif.Props.AllocCert
import Verif.Model.AllocData

/-!
# What the kernel checks about the shipped allocation coefficients
-/

namespace WG

/-- Reservoirs without mean annual inflow in one of the two shipped data sets. -/
def idleRows : List ℕ := [18472, 18598, 20919, 37038, 55842]

noncomputable def alR (k : ℕ) : ℕ :=
  allocTable.get (Nat.mod (Nat.div (allocData.get (Nat.div k 64)) (Nat.pow 10 (Nat.mul 3 (Nat.sub 63 (Nat.mod k 64))))) 1000)

noncomputable def coefR (a j : ℕ) : ℕ := Nat.mod (Nat.div a (Nat.pow 10 (Nat.mul 7 (Nat.sub 4 j)))) 10000000

/-- Row `k` has a reservoir or regulated lake. -/
noncomputable def damR (k : ℕ) : Bool := Nat.beq (Nat.mod (Nat.div (Nat.mod (Nat.div (surfR k) 100000) 100) 2) 2) 1

/-- The reservoir of row `k` has mean annual inflow. -/
noncomputable def stopR (k : ℕ) : Bool := cond (damR k) (not (memR k idleRows)) false

/-- The row downstream of `p`, 67420 if there is none or if it has a reservoir with inflow. -/
noncomputable def stepR (p : ℕ) : ℕ :=
  (fun o => cond (Nat.beq o 0) 67420 ((fun q => cond (stopR q) 67420 q) (Nat.div (certR o) 128))) (Nat.mod (rowR p) 1000000)

/-- `f` on the rows downstream of `p`, at most `n`. -/
noncomputable def allDown (f : ℕ → Bool) (n p : ℕ) : Bool :=
  Nat.rec (motive := fun _ => ℕ → Bool) (fun _ => true)
    (fun _ ih p => (fun q => cond (Nat.beq q 67420) true (cond (f q) (ih q) false)) (stepR p)) n p

/-- The sum of the coefficients `a` over the rows downstream of `p` that are `c`; `n` rows remain. -/
noncomputable def shareR (c a n p : ℕ) : ℕ :=
  Nat.rec (motive := fun _ => ℕ → ℕ) (fun _ => 0)
    (fun m ih p => (fun q => cond (Nat.beq q 67420) 0 (Nat.add (cond (Nat.beq q c) (coefR a (Nat.sub 4 m)) 0) (ih q))) (stepR p)) n p

/-- The rows of a list of reservoirs. -/
noncomputable def rowsR (f n : ℕ) : List ℕ :=
  Nat.rec (motive := fun _ => ℕ → List ℕ) (fun _ => [])
    (fun _ ih n => cond (Nat.beq n 0) [] (List.cons (Nat.sub (Nat.mod n 100000) 1) (ih (Nat.div n 100000)))) f n

/-- The reservoirs that supply row `c`. -/
noncomputable def serveR (c : ℕ) : List ℕ :=
  rowsR 8 (serveTable.get (Nat.mod (Nat.div (serveData.get (Nat.div c 64)) (Nat.pow 10 (Nat.mul 4 (Nat.sub 63 (Nat.mod c 64))))) 10000))

/-- Rows of reservoirs in increasing order, from `b` on. -/
noncomputable def sortedR (l : List ℕ) (b : ℕ) : Bool :=
  List.rec (motive := fun _ => ℕ → Bool) (fun _ => true)
    (fun k _ ih b => cond (Nat.ble b k) (cond (Nat.blt k 67420) (cond (damR k) (ih (Nat.succ k)) false) false) false) l b

noncomputable def sumR (c : ℕ) (l : List ℕ) : ℕ := List.rec 0 (fun k _ s => Nat.add (shareR c (alR k) 5 k) s) l

noncomputable def isNil (l : List ℕ) : Bool := List.rec true (fun _ _ _ => false) l

/-- The check of row `k`: it is among the reservoirs of every row it supplies; its own reservoirs supply it to one millionth;
its reservoir starts in 2020 or before. -/
noncomputable def allocCheck (k : ℕ) : Bool :=
  cond (cond (damR k) (allDown (fun q => cond (damR q) false (memR k (serveR q))) 5 k) true)
    (cond (Nat.ble (Nat.mod (surfR k) 10000) 2020)
      ((fun l => cond (isNil l) true (cond (sortedR l 0) ((fun s => cond (Nat.ble 999999 s) (Nat.ble s 1000001) false) (sumR k l)) false)) (serveR k))
      false) false

theorem alloc_0 : checkFrom allocCheck 0 3371 = true := by decide +kernel

theorem alloc_3371 : checkFrom allocCheck 3371 3371 = true := by decide +kernel

theorem alloc_6742 : checkFrom allocCheck 6742 3371 = true := by decide +kernel

theorem alloc_10113 : checkFrom allocCheck 10113 3371 = true := by decide +kernel

theorem alloc_13484 : checkFrom allocCheck 13484 3371 = true := by decide +kernel

theorem alloc_16855 : checkFrom allocCheck 16855 3371 = true := by decide +kernel

theorem alloc_20226 : checkFrom allocCheck 20226 3371 = true := by decide +kernel

theorem alloc_23597 : checkFrom allocCheck 23597 3371 = true := by decide +kernel

theorem alloc_26968 : checkFrom allocCheck 26968 3371 = true := by decide +kernel

theorem alloc_30339 : checkFrom allocCheck 30339 3371 = true := by decide +kernel

theorem alloc_33710 : checkFrom allocCheck 33710 3371 = true := by decide +kernel

theorem alloc_37081 : checkFrom allocCheck 37081 3371 = true := by decide +kernel

theorem alloc_40452 : checkFrom allocCheck 40452 3371 = true := by decide +kernel

theorem alloc_43823 : checkFrom allocCheck 43823 3371 = true := by decide +kernel

theorem alloc_47194 : checkFrom allocCheck 47194 3371 = true := by decide +kernel

theorem alloc_50565 : checkFrom allocCheck 50565 3371 = true := by decide +kernel

theorem alloc_53936 : checkFrom allocCheck 53936 3371 = true := by decide +kernel

theorem alloc_57307 : checkFrom allocCheck 57307 3371 = true := by decide +kernel

theorem alloc_60678 : checkFrom allocCheck 60678 3371 = true := by decide +kernel

theorem alloc_64049 : checkFrom allocCheck 64049 3371 = true := by decide +kernel

end WG
