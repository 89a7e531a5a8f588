import Verif.Props.NetworkCheck
import Verif.Model.SurfaceData
import Verif.Model.FractionData
import Verif.Model.ParamData

/-!
# What the kernel checks about the shipped fractions and parameters
-/

namespace WG

noncomputable def fracR (k : ℕ) : ℕ :=
  Nat.mod (Nat.div (fractionData.get (Nat.div k 16)) (Nat.pow 10 (Nat.mul 44 (Nat.sub 15 (Nat.mod k 16))))) (Nat.pow 10 44)

noncomputable def parR (k : ℕ) : ℕ :=
  Nat.mod (Nat.div (paramData.get (Nat.div k 16)) (Nat.pow 10 (Nat.mul 41 (Nat.sub 15 (Nat.mod k 16))))) (Nat.pow 10 41)

noncomputable def dirR (k : ℕ) : ℕ :=
  Nat.mod (Nat.div (surfaceData.get (Nat.div k 64)) (Nat.pow 10 (Nat.add (Nat.mul 12 (Nat.sub 63 (Nat.mod k 64))) 11))) 10

/-- `2 ^ 50` times the binary32 number with the bits `b`. -/
noncomputable def fx (b : ℕ) : ℕ :=
  cond (Nat.beq b 0) 0 (Nat.mul (Nat.add 8388608 (Nat.mod b 8388608)) (Nat.pow 2 (Nat.sub (Nat.div b 8388608) 100)))

/-- The bits are those of zero or of a number of at least `2 ^ -27`. -/
noncomputable def okb (b : ℕ) : Bool := cond (Nat.beq b 0) true (Nat.ble 838860800 b)

/-- Entries of reservoir years: years and fractions grow. -/
noncomputable def histOk (n f : ℕ) : Bool :=
  Nat.rec (motive := fun _ => ℕ → Bool) (fun n => Nat.beq n 0)
    (fun _ ih n => cond (Nat.beq n 0) true ((fun m => cond (Nat.blt (Nat.div (Nat.mod m 10000000000000) 10000000000) (Nat.div (Nat.mod n 10000000000000) 10000000000))
      (cond (Nat.blt (Nat.mod m 10000000000) (Nat.mod n 10000000000)) (ih m) false) false) (Nat.div n 10000000000000))) f n

/-- Rows whose water bodies do not fit into the continent. -/
def tightRows : List ℕ :=
  [2600, 2902, 3068, 4572, 4575, 5024, 7368, 8066, 9046, 9763, 23043, 26046, 27516, 38536, 39732, 40096, 43533, 43639, 47499, 48497, 52127,
   54034, 54867, 56509, 60150, 60228, 60302, 61778, 62220, 63520, 64113, 64904, 66258, 66939]

/-- Rows with an areal correction factor above one whose land can be flooded altogether. -/
def floodedRows : List ℕ := [24181, 25084, 25174, 27428, 39809, 46810, 47362, 54157, 56510, 58078, 58079]

/-- `a`: local lakes and wetlands and global wetlands, `l`: local reservoirs, `g`: global lakes, `r`: regulated lakes, `s`: reservoirs in the last
year, `c`: continent, all times `2 ^ 50`; `q`: the areal correction factor times `2 ^ 59`. -/
noncomputable def fitCheck (k q a l g r s c : ℕ) : Bool :=
  cond (cond (Nat.ble (Nat.add (Nat.add a g) r) c) (Nat.ble (Nat.add (Nat.add (Nat.add a l) g) s) c) false)
    (cond (Nat.ble q 576460752303423488) true
      (cond (cond (cond (Nat.blt (Nat.add (Nat.add a g) r) c) true (Nat.beq (Nat.add g r) c))
        (cond (Nat.blt (Nat.add (Nat.add (Nat.add a l) g) s) c) true (Nat.beq (Nat.add g s) c)) false) true (memR k floodedRows)))
    (cond (memR k tightRows) (cond (Nat.ble (Nat.add (Nat.add a g) r) (Nat.add c 36028797018))
      (Nat.ble (Nat.add (Nat.add (Nat.add a l) g) s) (Nat.add c 36028797018)) false) false)

noncomputable def bitsOk (c w1 w2 w3 r1 r2 r3 h : ℕ) : Bool :=
  cond (okb c) (cond (Nat.blt 0 c) (cond (Nat.ble c 1120403456) (cond (okb w1) (cond (okb w2) (cond (okb w3) (cond (okb r1) (cond (okb r2)
    (cond (okb r3) (cond (okb (Nat.mod h 10000000000)) (histOk h 4) false) false) false) false) false) false) false) false) false) false

noncomputable def fracCheck1 (k q c w1 w2 w3 r1 r2 r3 h : ℕ) : Bool :=
  cond (bitsOk c w1 w2 w3 r1 r2 r3 h)
    (fitCheck k q (Nat.add (Nat.add (fx w1) (fx w2)) (fx w3)) (fx r3) (fx r1) (fx r2) (fx (Nat.mod h 10000000000)) (fx c)) false

/-- `f`: row of fractions, `r`: its record of rarer water bodies. -/
noncomputable def fracCheck (k q f r : ℕ) : Bool :=
  fracCheck1 k q (Nat.div f (Nat.pow 10 34)) (Nat.mod (Nat.div f (Nat.pow 10 24)) 10000000000) (Nat.mod (Nat.div f (Nat.pow 10 14)) 10000000000)
    (Nat.mod (Nat.div f 10000) 10000000000) (Nat.mod (Nat.div r (Nat.pow 10 20)) 10000000000) (Nat.mod (Nat.div r 10000000000) 10000000000)
    (Nat.mod r 10000000000) (Nat.div r (Nat.pow 10 30))

/-- `d`: drainage direction, `p`: row of parameters, `q`: areal, `s`: station correction factor, `a`: bits of the cell area.  A factor other than one only
where gamma is 0.1 or 5; no station factor in inland sinks. -/
noncomputable def parCheck (d p q s a : ℕ) : Bool :=
  cond (Nat.blt 0 a) (cond (Nat.blt 0 (Nat.mod p 10000000000)) (cond (Nat.blt (Nat.mod (Nat.div p 10000000000) 10) 2)
    (cond ((fun c => cond (Nat.ble c 16) (cond (Nat.beq c 0) false (cond (Nat.beq c 11) false (not (Nat.beq c 13)))) false) (Nat.mod (Nat.div p 100000000000) 100))
    (cond (cond (Nat.beq d 0) (Nat.beq s 576460752303423488) true)
      (cond (cond (Nat.beq q 576460752303423488) (Nat.beq s 576460752303423488) false) true
        ((fun g => cond (Nat.beq g 57646075230342352) true (Nat.beq g 2882303761517117440)) (gammaData.get (Nat.div p (Nat.pow 10 36))))) false) false) false) false) false

noncomputable def paramCheck1 (k f p q : ℕ) : Bool :=
  cond (fracCheck k q f (rareData.get (Nat.mod f 10000)))
    (parCheck (dirR k) p q (cfsData.get (Nat.mod (Nat.div p (Nat.pow 10 30)) 1000)) (areaData.get (Nat.div (Nat.mod (Nat.div (rowR k) 100000000000) 1000000) 1000))) false

/-- The check of row `k`. -/
noncomputable def paramCheck (k : ℕ) : Bool :=
  (fun f p => paramCheck1 k f p (cfaData.get (Nat.mod (Nat.div p (Nat.pow 10 33)) 1000))) (fracR k) (parR k)


end WG
