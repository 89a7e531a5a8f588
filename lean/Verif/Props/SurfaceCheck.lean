import Verif.Props.NetworkCheck
import Verif.Props.SurfaceCert
import Verif.Model.SurfaceData

/-!
# What the kernel checks about the shipped maps of drainage directions, lakes and reservoirs
-/

namespace WG

noncomputable def surfR (k : ℕ) : ℕ :=
  Nat.mod (Nat.div (surfaceData.get (Nat.div k 64)) (Nat.pow 10 (Nat.mul 12 (Nat.sub 63 (Nat.mod k 64))))) 1000000000000

/-- The row of the outflow cell of unit `u` in the certificate. -/
noncomputable def outR (u : ℕ) : ℕ :=
  Nat.mod (Nat.div (surfaceCert.get (Nat.div u 64)) (Nat.pow 10 (Nat.mul 5 (Nat.sub 63 (Nat.mod u 64))))) 100000

/-- The drainage direction `d` leads from the cell of the row `r` of the routing order to its outflow cell. -/
noncomputable def dirCheck (r d : ℕ) : Bool :=
  cond (cond (Nat.beq d 0) true (Nat.beq d 5)) (Nat.beq (Nat.mod r 100000000000) 0)
    (cond (Nat.beq (Nat.mod r 100000000000) 0) false
    ((fun c o => cond (Nat.beq (Nat.add (Nat.div o 1000) (Nat.div (Nat.sub d 1) 3)) (Nat.succ (Nat.div c 1000)))
      (Nat.beq (Nat.mod o 1000) (Nat.mod (Nat.add (Nat.add (Nat.mod c 1000) 719) (Nat.mod (Nat.sub d 1) 3)) 720)) false)
      (Nat.mod (Nat.div r 100000000000) 1000000) (Nat.mod r 1000000)))

/-- The units with more than one outflow cell. -/
noncomputable def several (u : ℕ) : Bool :=
  cond (Nat.beq u 734) true (cond (Nat.beq u 1858) true (cond (Nat.beq u 2288) true (Nat.beq u 2467)))

/-- `b`: the row has the area of a lake or reservoir. -/
noncomputable def unitCheck (k u : ℕ) (b : Bool) : Bool :=
  cond (Nat.blt u 2473) (cond (Nat.beq u 0) (not b) (cond (Nat.beq u 2265) (not b) (cond (several u) true
    ((fun p => cond (Nat.blt p 67420) (cond b (Nat.beq p k) true) false) (outR u))))) false

/-- `b`: lakes and reservoirs, `t`: type, `y`: start year. -/
noncomputable def resCheck (b t y : ℕ) : Bool :=
  cond (Nat.beq (Nat.mod (Nat.div b 2) 2) 0) (cond (Nat.beq (Nat.div b 4) 0) (cond (Nat.beq t 0) (Nat.beq y 0) false) false)
    (cond (Nat.beq (Nat.mod (Nat.div b 4) 2) 1) (cond (cond (Nat.beq t 1) true (Nat.beq t 2)) (Nat.blt 0 y) false) false)

noncomputable def surfaceCheck1 (k r s b : ℕ) : Bool :=
  cond (dirCheck r (Nat.div s 100000000000)) (cond (unitCheck k (Nat.mod (Nat.div s 10000000) 10000) (not (Nat.beq (Nat.mod b 4) 0)))
    (resCheck b (Nat.mod (Nat.div s 10000) 10) (Nat.mod s 10000)) false) false

/-- The check of row `k`. -/
noncomputable def surfaceCheck (k : ℕ) : Bool :=
  (fun r s => surfaceCheck1 k r s (Nat.mod (Nat.div s 100000) 100)) (rowR k) (surfR k)

/-- The check of unit `u` in the certificate. -/
noncomputable def certCheck (u : ℕ) : Bool :=
  (fun p => cond (Nat.beq p 99999) true (cond (Nat.blt p 67420) ((fun s => cond (Nat.beq (Nat.mod (Nat.div s 10000000) 10000) u)
    (not (Nat.beq (Nat.mod (Nat.mod (Nat.div s 100000) 100) 4) 0)) false) (surfR p)) false)) (outR u)

theorem units_checked : checkFrom certCheck 0 2473 = true := by decide +kernel

theorem surface_0 : checkFrom surfaceCheck 0 3371 = true := by decide +kernel

theorem surface_3371 : checkFrom surfaceCheck 3371 3371 = true := by decide +kernel

theorem surface_6742 : checkFrom surfaceCheck 6742 3371 = true := by decide +kernel

theorem surface_10113 : checkFrom surfaceCheck 10113 3371 = true := by decide +kernel

theorem surface_13484 : checkFrom surfaceCheck 13484 3371 = true := by decide +kernel

theorem surface_16855 : checkFrom surfaceCheck 16855 3371 = true := by decide +kernel

theorem surface_20226 : checkFrom surfaceCheck 20226 3371 = true := by decide +kernel

theorem surface_23597 : checkFrom surfaceCheck 23597 3371 = true := by decide +kernel

theorem surface_26968 : checkFrom surfaceCheck 26968 3371 = true := by decide +kernel

theorem surface_30339 : checkFrom surfaceCheck 30339 3371 = true := by decide +kernel

theorem surface_33710 : checkFrom surfaceCheck 33710 3371 = true := by decide +kernel

theorem surface_37081 : checkFrom surfaceCheck 37081 3371 = true := by decide +kernel

theorem surface_40452 : checkFrom surfaceCheck 40452 3371 = true := by decide +kernel

theorem surface_43823 : checkFrom surfaceCheck 43823 3371 = true := by decide +kernel

theorem surface_47194 : checkFrom surfaceCheck 47194 3371 = true := by decide +kernel

theorem surface_50565 : checkFrom surfaceCheck 50565 3371 = true := by decide +kernel

theorem surface_53936 : checkFrom surfaceCheck 53936 3371 = true := by decide +kernel

theorem surface_57307 : checkFrom surfaceCheck 57307 3371 = true := by decide +kernel

theorem surface_60678 : checkFrom surfaceCheck 60678 3371 = true := by decide +kernel

theorem surface_64049 : checkFrom surfaceCheck 64049 3371 = true := by decide +kernel

end WG
