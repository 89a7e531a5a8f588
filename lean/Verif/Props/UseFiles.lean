import Verif.Model.UseFiles
import Verif.Props.CalibData
import Std.Data.String.ToNat

/-! # Water-use files (C87) -/

namespace WG

/-- **C87 (files).**  Every file of the configured folder is read either as potential or as actual water use, not as both;
files elsewhere are not read. -/
theorem C87_files {α : Type} (cfg : String) (fs : List (UFile α)) (f : UFile α) :
    (f ∈ potFiles cfg fs ∨ f ∈ actFiles cfg fs ↔ f ∈ fs ∧ f.dir = cfg) ∧ ¬ (f ∈ potFiles cfg fs ∧ f ∈ actFiles cfg fs) := by
  unfold potFiles actFiles
  simp only [List.mem_filter, Bool.and_eq_true, decide_eq_true_eq, Bool.not_eq_true']
  cases isActual f.name <;> simp

/-- A name beginning with `atotuse` is one of an actual water use. -/
theorem isActual_prefix (s t : String) (h : "atotuse".toList <+: s.toList) : isActual (s ++ t) = true := by
  unfold isActual
  rw [decide_eq_true_eq, String.toList_append]
  exact (h.trans (List.prefix_append _ _)).isInfix

theorem mem_actPair {α : Type} (gw sw : ℕ → ℕ → α) (p : ℕ × ℕ) (f : UFile α) (h : f ∈ actPair gw sw p) :
    f.dir = writeDir ∧ isActual f.name = true := by
  unfold actPair at h
  simp only [List.mem_cons, List.not_mem_nil, or_false] at h
  rcases h with rfl | rfl <;> refine ⟨rfl, ?_⟩ <;> simp only [String.append_assoc] <;>
    exact isActual_prefix _ _ (by decide +kernel)

/-- The digits of a number end where the underscore is. -/
theorem digits_split (a b : ℕ) (u v : List Char) (h : (toString a).toList ++ '_' :: u = (toString b).toList ++ '_' :: v) :
    a = b ∧ u = v := by
  have hd : ∀ n : ℕ, ∀ c ∈ (toString n).toList, (c != '_') = true := by
    intro n c hc
    have : c.isDigit = true := by
      rw [Nat.toString_eq_repr, Nat.repr_eq_ofList_toDigits, String.toList_ofList] at hc
      exact Nat.isDigit_of_mem_toDigits (by decide) (by decide) hc
    rw [bne_iff_ne]
    rintro rfl
    exact absurd this (by decide)
  have hs : ∀ (n : ℕ) (w : List Char), ((toString n).toList ++ '_' :: w).takeWhile (· != '_') = (toString n).toList := by
    intro n w
    rw [List.takeWhile_append_of_pos (hd n)]
    simp
  have h1 := congrArg (List.takeWhile (· != '_')) h
  rw [hs, hs, String.toList_inj] at h1
  have h2 : a = b := by
    rw [Nat.toString_eq_repr, Nat.toString_eq_repr] at h1
    exact Nat.repr_inj.1 h1
  subst h2
  exact ⟨rfl, by simpa using h⟩

/-- Same folder and name. -/
def UFile.same {α : Type} (f g : UFile α) : Prop := f.dir = g.dir ∧ f.name = g.name

instance {α : Type} (f g : UFile α) : Decidable (f.same g) := by unfold UFile.same; infer_instance

theorem writeFile_fold {α : Type} (new fs : List (UFile α)) (h : new.Pairwise fun f g => ¬ f.same g) :
    new.foldl writeFile fs = (fs.filter fun g => decide (∀ f ∈ new, ¬ g.same f)) ++ new := by
  induction new generalizing fs with
  | nil => simp
  | cons f new ih =>
    obtain ⟨h1, h2⟩ := List.pairwise_cons.1 h
    rw [List.foldl_cons, ih _ h2]
    unfold writeFile
    rw [List.filter_append, List.filter_filter, List.filter_singleton, List.append_assoc]
    have : (decide (∀ f' ∈ new, ¬ f.same f')) = true := by
      rw [decide_eq_true_eq]; exact h1
    rw [this]
    change _ ++ ([f] ++ new) = _
    rw [List.singleton_append]
    congr 1
    refine List.filter_congr fun g _ => ?_
    by_cases ha : g.dir = f.dir ∧ g.name = f.name
    · have : ¬ ∀ f' ∈ f :: new, ¬ g.same f' := fun h => h f (by simp) ha
      rw [decide_eq_false this, decide_eq_true ha.1, decide_eq_true ha.2]
      simp
    · have e : (decide (g.dir = f.dir) && decide (g.name = f.name)) = false := by
        rw [← Bool.decide_and, decide_eq_false ha]
      rw [e, Bool.not_false, Bool.and_true, decide_eq_decide]
      simp only [List.mem_cons, forall_eq_or_imp]
      exact ⟨fun h => ⟨ha, h⟩, fun h => h.2⟩

/-- The names of the files of different stretches differ. -/
theorem actPair_distinct {α : Type} (gw sw : ℕ → ℕ → α) (l : List (ℕ × ℕ)) (h : l.Nodup) :
    (l.flatMap (actPair gw sw)).Pairwise fun f g => ¬ f.same g := by
  have key : ∀ p q : ℕ × ℕ, p ≠ q → ∀ f ∈ actPair gw sw p, ∀ g ∈ actPair gw sw q, ¬ f.same g := by
    intro p q hpq f hf g hg hs
    have he := congrArg String.toList hs.2
    unfold actPair at hf hg
    simp only [List.mem_cons, List.not_mem_nil, or_false] at hf hg
    have e1 : ∀ (x : String) (p : ℕ × ℕ), (x ++ toString p.1 ++ "_" ++ toString p.2 ++ ".nc").toList =
        x.toList ++ ((toString p.1).toList ++ '_' :: ((toString p.2).toList ++ ".nc".toList)) := by
      intro x p
      simp [String.toList_append]
    have hgo : ∀ x : String, (x ++ toString p.1 ++ "_" ++ toString p.2 ++ ".nc").toList =
        (x ++ toString q.1 ++ "_" ++ toString q.2 ++ ".nc").toList → False := by
      intro x hx
      rw [e1, e1, List.append_cancel_left_eq] at hx
      obtain ⟨a, b⟩ := digits_split _ _ _ _ hx
      rw [List.append_cancel_right_eq, String.toList_inj, Nat.toString_eq_repr, Nat.toString_eq_repr, Nat.repr_inj] at b
      exact hpq (Prod.ext a b)
    have hno : ∀ u v : List Char, "atotusegw_".toList ++ u ≠ "atotusesw_".toList ++ v := by
      intro u v hu
      have := congrArg (fun l => l[7]?) hu
      simp at this
    rcases hf with rfl | rfl <;> rcases hg with rfl | rfl
    · exact hgo _ he
    · rw [e1, e1] at he; exact hno _ _ he
    · rw [e1, e1] at he; exact hno _ _ he.symm
    · exact hgo _ he
  induction l with
  | nil => simp
  | cons p l ih =>
    obtain ⟨h1, h2⟩ := List.nodup_cons.1 h
    rw [List.flatMap_cons, List.pairwise_append]
    refine ⟨?_, ih h2, fun f hf g hg => ?_⟩
    · unfold actPair
      simp only [List.pairwise_cons, List.mem_cons, List.not_mem_nil, or_false, forall_eq, List.Pairwise.nil, and_true,
        IsEmpty.forall_iff, implies_true]
      rintro ⟨-, he⟩
      have he := congrArg (fun s => s.toList[7]?) he
      simp [String.toList_append] at he
    · obtain ⟨q, hq, hg⟩ := List.mem_flatMap.1 hg
      exact key p q (fun he => h1 (he ▸ hq)) f hf g hg

theorem tenYears_nodup (start fin : ℕ) : (tenYears start fin).Nodup := by
  obtain ⟨-, h2, h3⟩ := C57_cover start fin 0
  refine (List.Pairwise.imp_of_mem ?_ h3)
  intro p q hp hq h he
  subst he
  have := h2 p hp
  omega

/-- **C87 (preparing the calibration).**  Whatever lies in the folders, after the preparation the files of potential water use are
the same as before, and if the configured folder is `input_data/water_use/`, the actual water use that a calibration
run reads is exactly what was written now: nothing left over from an earlier preparation, nothing missing. -/
theorem C87_handover {α : Type} (cfg : String) (gw sw : ℕ → ℕ → α) (start fin : ℕ) (fs : List (UFile α)) :
    potFiles cfg (handOver cfg gw sw start fin fs) = potFiles cfg fs ∧
    (cfg = "input_data/water_use/" → actFiles cfg (handOver cfg gw sw start fin fs) =
      (tenYears start fin).flatMap fun p => [
        ⟨cfg, "atotusegw_" ++ toString p.1 ++ "_" ++ toString p.2 ++ ".nc", gw p.1 p.2⟩,
        ⟨cfg, "atotusesw_" ++ toString p.1 ++ "_" ++ toString p.2 ++ ".nc", sw p.1 p.2⟩]) := by
  have hall : ∀ f ∈ (tenYears start fin).flatMap (actPair gw sw), f.dir = writeDir ∧ isActual f.name = true := by
    intro f hf
    obtain ⟨p, -, hp⟩ := List.mem_flatMap.1 hf
    exact mem_actPair gw sw p f hp
  unfold handOver
  rw [writeFile_fold _ _ (actPair_distinct gw sw _ (tenYears_nodup start fin))]
  constructor
  · unfold potFiles cleanUse
    rw [List.filter_append, List.filter_filter, List.filter_filter]
    have h0 : ((tenYears start fin).flatMap (actPair gw sw)).filter
        (fun f => decide (f.dir = cfg) && !isActual f.name) = [] := by
      rw [List.filter_eq_nil_iff]
      intro f hf
      simp [(hall f hf).2]
    rw [h0, List.append_nil]
    refine List.filter_congr fun g _ => ?_
    by_cases ha : isActual g.name = true
    · simp [ha]
    · have hn : ∀ f ∈ (tenYears start fin).flatMap (actPair gw sw), ¬ g.same f := by
        intro f hf hs
        exact ha (by rw [hs.2]; exact (hall f hf).2)
      simp only [Bool.not_eq_true] at ha
      rw [decide_eq_true hn, ha]
      simp
  · rintro rfl
    unfold actFiles cleanUse
    rw [List.filter_append, List.filter_filter, List.filter_filter]
    have h0 : fs.filter (fun g => (decide (g.dir = "input_data/water_use/") && isActual g.name) &&
        decide (∀ f ∈ (tenYears start fin).flatMap (actPair gw sw), ¬ g.same f) &&
          !(decide (g.dir = "input_data/water_use/") && isActual g.name)) = [] := by
      rw [List.filter_eq_nil_iff]
      intro g _
      cases (decide (g.dir = "input_data/water_use/") && isActual g.name) <;> simp
    rw [h0, List.nil_append, List.filter_eq_self.2]
    · rfl
    · intro f hf
      rw [(hall f hf).2, decide_eq_true (show f.dir = "input_data/water_use/" from (hall f hf).1)]
      rfl

example : (handOver "input_data/water_use/" (fun a _ => a) (fun _ b => b) 1979 1990
      [⟨"input_data/water_use/", "pnas.nc", 0⟩, ⟨"input_data/water_use/", "atotusegw_1901_1910.nc", 7⟩]).map
        (fun f => (f.name, f.content)) =
    [("pnas.nc", 0), ("atotusegw_1979_1988.nc", 1979), ("atotusesw_1979_1988.nc", 1988),
      ("atotusegw_1989_1990.nc", 1989), ("atotusesw_1989_1990.nc", 1990)] := by
  decide +kernel

/-- **C87 violated (another folder).**  If any other folder is configured for the water-use data, a calibration run finds no
actual water use at all after the preparation, because it is written to `input_data/water_use/`, and what earlier
preparations left there is not removed. -/
theorem C87_violated_folder {α : Type} (cfg : String) (hcfg : cfg ≠ "input_data/water_use/") (gw sw : ℕ → ℕ → α)
    (start fin : ℕ) (fs : List (UFile α)) :
    actFiles cfg (handOver cfg gw sw start fin fs) = [] ∧
    (∀ f ∈ fs, f.dir = "input_data/water_use/" → (∀ g ∈ (tenYears start fin).flatMap (actPair gw sw), f.name ≠ g.name) →
      f ∈ handOver cfg gw sw start fin fs) := by
  have hall : ∀ f ∈ (tenYears start fin).flatMap (actPair gw sw), f.dir = writeDir ∧ isActual f.name = true := by
    intro f hf
    obtain ⟨p, -, hp⟩ := List.mem_flatMap.1 hf
    exact mem_actPair gw sw p f hp
  unfold handOver
  rw [writeFile_fold _ _ (actPair_distinct gw sw _ (tenYears_nodup start fin))]
  constructor
  · unfold actFiles cleanUse
    rw [List.filter_eq_nil_iff]
    intro g hg
    rw [List.mem_append, List.mem_filter, List.mem_filter] at hg
    rcases hg with hg | hg
    · have := hg.1.2
      cases h : (decide (g.dir = cfg) && isActual g.name)
      · simp
      · rw [h] at this; cases this
    · have : g.dir ≠ cfg := fun h => hcfg (h ▸ (hall g hg).1)
      simp [this]
  · intro f hf hd hn
    refine List.mem_append_left _ (List.mem_filter.2 ⟨List.mem_filter.2 ⟨hf, ?_⟩, ?_⟩)
    · have : f.dir ≠ cfg := fun h => hcfg (h ▸ hd)
      simp [this]
    · rw [decide_eq_true_eq]
      exact fun g hg hs => hn g hg hs.2

example := C87_violated_folder (α := ℕ) "/data/use/" (by decide) (fun a _ => a) (fun _ b => b) 1979 1990
  [⟨"input_data/water_use/", "atotusegw_1901_1910.nc", 7⟩]

end WG
