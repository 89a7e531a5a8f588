/-!
# Literal tables

A table of numbers as a binary tree of literals, so that the kernel can look up an entry quickly.
-/

namespace WG

/-- A list of numbers; a node says how many leaves are on its left. -/
inductive DTree
  | leaf (n : Nat)
  | node (w : Nat) (l r : DTree)

/-- A function applied to a number that the kernel computes first. -/
noncomputable def force {α : Type} (f : Nat → α) (n : Nat) : α := Nat.rec (motive := fun _ => α) (f 0) (fun m _ => f m) (Nat.succ n)

/-- The leaf with number `i`, counted from 0. -/
noncomputable def DTree.find (t : DTree) : Nat → Nat :=
  DTree.rec (fun n _ => n) (fun w _ _ l r i => Bool.rec (l i) (r (Nat.sub i w)) (Nat.ble w i)) t

/-- The leaf with number `i`, counted from 0. -/
noncomputable def DTree.get (t : DTree) (i : Nat) : Nat := force t.find i

end WG
