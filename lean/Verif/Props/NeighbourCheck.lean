import Verif.Props.NetworkCheck
import Verif.Model.NeighbourData

/-!
# What the kernel checks about the shipped table of the outflow cells of neighbours

The checks are run in `Verif.Props.NeighbourCheck1` to `NeighbourCheck4` and used in `Verif.Props.ShippedNeighbours`.
-/

namespace WG

noncomputable def nbR (k : ℕ) : ℕ :=
  Nat.mod (Nat.div (neighbourData.get (Nat.div k 32)) (Nat.pow 10 (Nat.mul 48 (Nat.sub 31 (Nat.mod k 32)))))
    1000000000000000000000000000000000000000000000000

/-- The code of the outflow cell of the cell with the code `c`, 0 if there is none; the certificate gives the cell the position `p`. -/
noncomputable def outAtR (c p : ℕ) : ℕ :=
  cond (Nat.blt p 67420) (force (fun r => cond (Nat.beq (Nat.mod (Nat.div r 100000000000) 1000000) c) (Nat.mod r 1000000) 0) (rowR p)) 0

/-- The outflow of the cell with the code `c` is the one with the place `m` in the row `r`. -/
noncomputable def oneR (r m c : ℕ) : Bool :=
  force (fun c => Nat.beq (outAtR c (Nat.div (certR c) 128)) (Nat.mod (Nat.div r m) 1000000)) c

/-- Rows north (`n`) and south (`s`), and that of the cell (`t`), times 1000; columns east (`e`) and west (`w`) of the cell, and its own
(`l`). -/
noncomputable def eightR (r t l n s e w : ℕ) : Bool :=
  cond (oneR r 1000000000000000000000000000000000000000000 (Nat.add t e)) (cond (oneR r 1000000000000000000000000000000000000 (Nat.add n e))
    (cond (oneR r 1000000000000000000000000000000 (Nat.add n l)) (cond (oneR r 1000000000000000000000000 (Nat.add n w))
    (cond (oneR r 1000000000000000000 (Nat.add t w)) (cond (oneR r 1000000000000 (Nat.add s w)) (cond (oneR r 1000000 (Nat.add s l))
    (oneR r 1 (Nat.add s e)) false) false) false) false) false) false) false

/-- The check of row `k`. -/
noncomputable def nbCheck (k : ℕ) : Bool :=
  force (fun c => force (fun t => force (fun l => force (fun r => cond (Nat.blt 0 t)
    (eightR r (Nat.mul 1000 t) l (Nat.mul 1000 (Nat.sub t 1)) (Nat.mul 1000 (Nat.succ t)) (Nat.mod (Nat.succ l) 720)
    (Nat.mod (Nat.add l 719) 720)) false) (nbR k)) (Nat.mod c 1000)) (Nat.div c 1000)) (Nat.mod (Nat.div (rowR k) 100000000000) 1000000)

end WG
