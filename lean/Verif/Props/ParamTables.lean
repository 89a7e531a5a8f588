import Verif.Props.ParamCheck

/-!
# What the kernel checks about the tables of parameters and the exceptional rows
-/

namespace WG

/-- All numbers of a table meet a condition. -/
noncomputable def allR (f : ℕ → Bool) (t : DTree) : Bool := DTree.rec (fun n => f n) (fun _ _ _ a b => cond a b false) t

theorem allR_get (f : ℕ → Bool) (t : DTree) (h : allR f t = true) (i : ℕ) : f (t.get i) = true := by
  change f (t.find i) = true
  induction t generalizing i with
  | leaf n => exact h
  | node w l r hl hr =>
    have h' : cond (allR f l) (allR f r) false = true := h
    have a : allR f l = true ∧ allR f r = true := by
      cases e : allR f l <;> rw [e] at h' <;> simp_all
    change f (Bool.rec (l.find i) (r.find (i - w)) (Nat.ble w i)) = true
    cases Nat.ble w i
    · exact hl a.1 _
    · exact hr a.2 _

noncomputable def between (a b n : ℕ) : Bool := cond (Nat.ble a n) (Nat.ble n b) false

theorem gamma_checked : allR (between 57646075230342352 2882303761517117440) gammaData = true := by decide +kernel

theorem cfa_checked : allR (between 288230376151711744 864691128455135232) cfaData = true := by decide +kernel

theorem cfs_checked : allR (between 7132204000000000 6780393300000000000) cfsData = true := by decide +kernel

theorem tawc_checked : allR (between 1103101952 1138425856) tawcData = true := by decide +kernel

theorem built_checked : allR (between 0 1056964608) builtData = true := by decide +kernel

theorem factor_checked : allR (between 0 1065353216) factorData = true := by decide +kernel

/-- The rows of `tightRows` do not fit, neither without reservoirs nor with those of the last year. -/
noncomputable def tightCheck1 (f r : ℕ) : Bool :=
  (fun a c => cond (Nat.blt c (Nat.add (Nat.add a (fx (Nat.mod (Nat.div r (Nat.pow 10 20)) 10000000000))) (fx (Nat.mod (Nat.div r 10000000000) 10000000000))))
    (Nat.blt c (Nat.add (Nat.add (Nat.add a (fx (Nat.mod r 10000000000))) (fx (Nat.mod (Nat.div r (Nat.pow 10 20)) 10000000000)))
      (fx (Nat.mod (Nat.div r (Nat.pow 10 30)) 10000000000)))) false)
    (Nat.add (Nat.add (fx (Nat.mod (Nat.div f (Nat.pow 10 24)) 10000000000)) (fx (Nat.mod (Nat.div f (Nat.pow 10 14)) 10000000000)))
      (fx (Nat.mod (Nat.div f 10000) 10000000000))) (fx (Nat.div f (Nat.pow 10 34)))

noncomputable def tightCheck (k : ℕ) : Bool :=
  cond (Nat.ble (Nat.div (Nat.mod (Nat.div (rareData.get (Nat.mod (fracR k) 10000)) (Nat.pow 10 30)) 10000000000000) 10000000000) 125)
    (tightCheck1 (fracR k) (rareData.get (Nat.mod (fracR k) 10000))) false

theorem tight_checked : List.all tightRows tightCheck = true := by decide +kernel

/-- In the rows of `floodedRows` the areal correction factor is above one, and local lakes and wetlands and global wetlands make up all of the
land left by global and regulated lakes; without reservoirs. -/
noncomputable def floodCheck1 (f p r : ℕ) : Bool :=
  (fun a c g => cond (Nat.blt 576460752303423488 (cfaData.get (Nat.mod (Nat.div p (Nat.pow 10 33)) 1000)))
    (cond (Nat.blt 0 a) (Nat.beq c (Nat.add a g)) false) false)
    (Nat.add (Nat.add (fx (Nat.mod (Nat.div f (Nat.pow 10 24)) 10000000000)) (fx (Nat.mod (Nat.div f (Nat.pow 10 14)) 10000000000)))
      (fx (Nat.mod (Nat.div f 10000) 10000000000))) (fx (Nat.div f (Nat.pow 10 34)))
    (Nat.add (fx (Nat.mod (Nat.div r (Nat.pow 10 20)) 10000000000)) (fx (Nat.mod (Nat.div r 10000000000) 10000000000)))

noncomputable def floodCheck (k : ℕ) : Bool := floodCheck1 (fracR k) (parR k) (rareData.get (Nat.mod (fracR k) 10000))

theorem flood_checked : List.all floodedRows floodCheck = true := by decide +kernel

end WG
