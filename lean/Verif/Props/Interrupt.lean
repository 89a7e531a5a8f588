import Verif.Model.Interrupt
import Verif.Props.OutSelect
import Verif.Props.Restart
import Mathlib.Logic.Relation

/-!
# C94: a run may be interrupted at any moment and repeated

What is on the disk after a run that was interrupted any number of times, at any step of any of the processes that write files, is what
is there after one run that was not interrupted.  `K.completes c restart d e`: a complete run of the period `c` leads from the disk `d` to the
disk `e`; `K.attempt`: a run that may be interrupted.
-/

namespace WG

section generic
variable {S : Type}

/-- The files of a batch, one after the other. -/
def writeBatch (b : Batch S) (d : Disk S) : Disk S := b.foldl (fun d w => Function.update d w.1 (some (some w.2))) d

/-- The files of several batches. -/
def writeBatches (bs : List (Batch S)) (d : Disk S) : Disk S := bs.foldl (fun d b => writeBatch b d) d

/-- All names in batches. -/
def batchNames (bs : List (Batch S)) : List (List Char) := bs.flatMap fun b => b.map Prod.fst

theorem applyOps_append (l l' : List (FileOp S)) (d : Disk S) : applyOps (l ++ l') d = applyOps l' (applyOps l d) := by
  simp [applyOps]

theorem applyOps_val (l : List (FileOp S)) (d : Disk S) (n : List Char) :
    applyOps l d n = d n ∨ ∃ o ∈ l, o.name = n ∧ applyOps l d n = (o.apply d) n := by
  induction l generalizing d with
  | nil => exact .inl rfl
  | cons o l ih =>
    have e : applyOps (o :: l) d = applyOps l (o.apply d) := rfl
    rw [e]
    rcases ih (o.apply d) with h | ⟨o', ho', hn, h⟩
    · by_cases hn : o.name = n
      · exact .inr ⟨o, by simp, hn, h⟩
      · left
        rw [h]
        cases o <;> simp only [FileOp.name] at hn <;> simp only [FileOp.apply, Function.update_of_ne (Ne.symm hn)]
    · refine .inr ⟨o', by simp [ho'], hn, ?_⟩
      rw [h]
      cases o' <;> simp only [FileOp.name] at hn <;> subst hn <;> simp only [FileOp.apply, Function.update_self]

theorem applyOps_other (l : List (FileOp S)) (d : Disk S) (n : List Char) (h : ∀ o ∈ l, o.name ≠ n) : applyOps l d n = d n := by
  rcases applyOps_val l d n with h' | ⟨o, ho, hn, -⟩
  · exact h'
  · exact absurd hn (h o ho)

theorem applyOps_filter (l : List (FileOp S)) (d : Disk S) (n : List Char) :
    applyOps l d n = applyOps (l.filter fun o => decide (o.name = n)) d n := by
  induction l generalizing d with
  | nil => rfl
  | cons o l ih =>
    have e : applyOps (o :: l) d = applyOps l (o.apply d) := rfl
    rw [e]
    by_cases hn : o.name = n
    · rw [List.filter_cons_of_pos (by simpa using hn), ih]; rfl
    · rw [List.filter_cons_of_neg (by simpa using hn), ih]
      have key : ∀ (m : List (FileOp S)) (d d' : Disk S), d n = d' n → applyOps m d n = applyOps m d' n := by
        intro m
        induction m with
        | nil => intro d d' h; exact h
        | cons p m ihm =>
          intro d d' h
          apply ihm
          cases p with
          | start k => by_cases hk : k = n <;> simp [FileOp.apply, Function.update_apply, hk, h]
          | finish k x => by_cases hk : k = n <;> simp [FileOp.apply, Function.update_apply, hk, h]
      apply key
      cases o <;> simp only [FileOp.name] at hn <;> simp only [FileOp.apply, Function.update_of_ne (Ne.symm hn)]

theorem writer_name (w : List Char × FileData S) : ∀ o ∈ writerOps w, o.name = w.1 := by
  intro o ho
  simp only [writerOps, List.mem_cons, List.not_mem_nil, or_false] at ho
  rcases ho with rfl | rfl <;> rfl

theorem interleaved_op {b : Batch S} {l : List (FileOp S)} (h : Interleaved b l) : ∀ o ∈ l, ∃ w ∈ b, o ∈ writerOps w := by
  intro o ho
  exact List.mem_flatMap.1 (h.1.mem_iff.1 ho)

theorem batch_filter (b : Batch S) (hb : (b.map Prod.fst).Nodup) (w : List Char × FileData S) (hw : w ∈ b) :
    (b.flatMap writerOps).filter (fun o => decide (o.name = w.1)) = writerOps w := by
  induction b with
  | nil => simp at hw
  | cons a b ih =>
    simp only [List.map_cons, List.nodup_cons] at hb
    rw [List.flatMap_cons, List.filter_append]
    rcases List.mem_cons.1 hw with rfl | hw
    · have : (b.flatMap writerOps).filter (fun o => decide (o.name = w.1)) = [] := by
        rw [List.filter_eq_nil_iff]
        intro o ho hn
        obtain ⟨v, hv, ho⟩ := List.mem_flatMap.1 ho
        rw [writer_name v o ho] at hn
        exact hb.1 (List.mem_map.2 ⟨v, hv, of_decide_eq_true hn⟩)
      rw [this, List.append_nil, List.filter_eq_self]
      intro o ho
      simp [writer_name w o ho]
    · rw [ih hb.2 hw]
      have : (writerOps a).filter (fun o => decide (o.name = w.1)) = [] := by
        rw [List.filter_eq_nil_iff]
        intro o ho hn
        rw [writer_name a o ho] at hn
        exact hb.1 (List.mem_map.2 ⟨w, hw, (of_decide_eq_true hn).symm⟩)
      rw [this, List.nil_append]

theorem interleaved_mem {b : Batch S} (hb : (b.map Prod.fst).Nodup) {l : List (FileOp S)} (h : Interleaved b l)
    (w : List Char × FileData S) (hw : w ∈ b) (d : Disk S) : applyOps l d w.1 = some (some w.2) := by
  have hf : l.filter (fun o => decide (o.name = w.1)) = writerOps w := by
    have hp := (h.1.filter fun o => decide (o.name = w.1))
    rw [batch_filter b hb w hw] at hp
    have hs := (h.2 w hw).filter fun o => decide (o.name = w.1)
    have : (writerOps w).filter (fun o => decide (o.name = w.1)) = writerOps w := by
      rw [List.filter_eq_self]; intro o ho; simp [writer_name w o ho]
    rw [this] at hs
    exact (hs.eq_of_length hp.length_eq.symm).symm
  rw [applyOps_filter, hf]
  simp [writerOps, applyOps, FileOp.apply]

theorem interleaved_other {b : Batch S} {l : List (FileOp S)} (h : Interleaved b l) (n : List Char) (hn : n ∉ b.map Prod.fst) (d : Disk S) :
    applyOps l d n = d n := by
  refine applyOps_other _ _ _ fun o ho e => ?_
  obtain ⟨w, hw, how⟩ := interleaved_op h o ho
  rw [writer_name w o how] at e
  exact hn (List.mem_map.2 ⟨w, hw, e⟩)

theorem writeBatch_other (b : Batch S) (n : List Char) (hn : n ∉ b.map Prod.fst) (d : Disk S) : writeBatch b d n = d n := by
  induction b generalizing d with
  | nil => rfl
  | cons a b ih =>
    simp only [List.map_cons, List.mem_cons, not_or] at hn
    have : writeBatch (a :: b) d = writeBatch b (Function.update d a.1 (some (some a.2))) := rfl
    rw [this, ih hn.2, Function.update_of_ne hn.1]

theorem writeBatch_val (b : Batch S) (n : List Char) (hn : n ∈ b.map Prod.fst) :
    ∃ w ∈ b, w.1 = n ∧ ∀ d, writeBatch b d n = some (some w.2) := by
  induction b with
  | nil => simp at hn
  | cons a b ih =>
    have e : ∀ d, writeBatch (a :: b) d = writeBatch b (Function.update d a.1 (some (some a.2))) := fun _ => rfl
    by_cases h : n ∈ b.map Prod.fst
    · obtain ⟨w, hw, h1, h2⟩ := ih h
      exact ⟨w, by simp [hw], h1, fun d => by rw [e, h2]⟩
    · have : n = a.1 := by simpa [h] using hn
      refine ⟨a, by simp, this.symm, fun d => ?_⟩
      rw [e, writeBatch_other b n h, this, Function.update_self]

theorem nodup_fst {b : Batch S} (hb : (b.map Prod.fst).Nodup) {v w : List Char × FileData S} (hv : v ∈ b) (hw : w ∈ b) (h : v.1 = w.1) :
    v = w := by
  exact List.inj_on_of_nodup_map hb hv hw h

theorem interleaved_full {b : Batch S} (hb : (b.map Prod.fst).Nodup) {l : List (FileOp S)} (h : Interleaved b l) (d : Disk S) :
    applyOps l d = writeBatch b d := by
  funext n
  by_cases hn : n ∈ b.map Prod.fst
  · obtain ⟨w, hw, h1, h2⟩ := writeBatch_val b n hn
    rw [h2, ← h1, interleaved_mem hb h w hw]
  · rw [interleaved_other h n hn, writeBatch_other b n hn]

theorem scheduled_full {bs : List (Batch S)} (hb : ∀ b ∈ bs, (b.map Prod.fst).Nodup) {l : List (FileOp S)} (h : Scheduled bs l) (d : Disk S) :
    applyOps l d = writeBatches bs d := by
  induction bs generalizing l d with
  | nil => rw [show l = [] from h]; rfl
  | cons b bs ih =>
    obtain ⟨l₁, l₂, h1, h2, rfl⟩ := h
    rw [applyOps_append, interleaved_full (hb b (by simp)) h1, ih (fun b hb' => hb b (by simp [hb'])) h2]
    rfl

theorem scheduled_op {bs : List (Batch S)} {l : List (FileOp S)} (h : Scheduled bs l) : ∀ o ∈ l, ∃ b ∈ bs, ∃ w ∈ b, o ∈ writerOps w := by
  induction bs generalizing l with
  | nil => rw [show l = [] from h]; simp
  | cons b bs ih =>
    obtain ⟨l₁, l₂, h1, h2, rfl⟩ := h
    intro o ho
    rcases List.mem_append.1 ho with ho | ho
    · exact ⟨b, by simp, interleaved_op h1 o ho⟩
    · obtain ⟨b', hb', hw⟩ := ih h2 o ho
      exact ⟨b', by simp [hb'], hw⟩

/-- Such an order exists. -/
theorem scheduled_exists (bs : List (Batch S)) : Scheduled bs (bs.flatMap fun b => b.flatMap writerOps) := by
  induction bs with
  | nil => rfl
  | cons b bs ih =>
    refine ⟨b.flatMap writerOps, _, ⟨List.Perm.refl _, fun w hw => ?_⟩, ih, rfl⟩
    obtain ⟨x, y, rfl⟩ := List.append_of_mem hw
    rw [List.flatMap_append, List.flatMap_cons]
    exact (List.sublist_append_left _ _).trans (List.sublist_append_right _ _)

theorem writeBatches_other (bs : List (Batch S)) (n : List Char) (hn : n ∉ batchNames bs) (d : Disk S) : writeBatches bs d n = d n := by
  induction bs generalizing d with
  | nil => rfl
  | cons b bs ih =>
    simp only [batchNames, List.flatMap_cons, List.mem_append, not_or] at hn
    have : writeBatches (b :: bs) d = writeBatches bs (writeBatch b d) := rfl
    rw [this, ih hn.2, writeBatch_other b n hn.1]

theorem writeBatches_val (bs : List (Batch S)) (n : List Char) (hn : n ∈ batchNames bs) :
    ∃ b ∈ bs, ∃ w ∈ b, w.1 = n ∧ ∀ d, writeBatches bs d n = some (some w.2) := by
  induction bs with
  | nil => simp [batchNames] at hn
  | cons b bs ih =>
    have e : ∀ d, writeBatches (b :: bs) d = writeBatches bs (writeBatch b d) := fun _ => rfl
    by_cases h : n ∈ batchNames bs
    · obtain ⟨b', hb', w, hw, h1, h2⟩ := ih h
      exact ⟨b', by simp [hb'], w, hw, h1, fun d => by rw [e, h2]⟩
    · have : n ∈ b.map Prod.fst := by
        simp only [batchNames, List.flatMap_cons, List.mem_append] at hn h
        exact hn.resolve_right h
      obtain ⟨w, hw, h1, h2⟩ := writeBatch_val b n this
      exact ⟨b, by simp, w, hw, h1, fun d => by rw [e, writeBatches_other bs n h, h2]⟩

theorem scheduled_prefix_other {bs : List (Batch S)} {l l' : List (FileOp S)} (h : Scheduled bs l) (hp : l' <+: l) (n : List Char)
    (hn : n ∉ batchNames bs) (d : Disk S) : applyOps l' d n = d n := by
  refine applyOps_other _ _ _ fun o ho e => ?_
  obtain ⟨b, hb, w, hw, how⟩ := scheduled_op h o (hp.subset ho)
  rw [writer_name w o how] at e
  exact hn (List.mem_flatMap.2 ⟨b, hb, List.mem_map.2 ⟨w, hw, e⟩⟩)

theorem scheduled_prefix_val {bs : List (Batch S)} {l l' : List (FileOp S)} (h : Scheduled bs l) (hp : l' <+: l) (n : List Char) (d : Disk S) :
    applyOps l' d n = d n ∨ applyOps l' d n = some none ∨ ∃ b ∈ bs, ∃ w ∈ b, w.1 = n ∧ applyOps l' d n = some (some w.2) := by
  rcases applyOps_val l' d n with h' | ⟨o, ho, hn, h'⟩
  · exact .inl h'
  · obtain ⟨b, hb, w, hw, how⟩ := scheduled_op h o (hp.subset ho)
    simp only [writerOps, List.mem_cons, List.not_mem_nil, or_false] at how
    rcases how with rfl | rfl
    · right; left; rw [h']; simp only [FileOp.name] at hn; rw [← hn]; simp [FileOp.apply]
    · right; right; refine ⟨b, hb, w, hw, hn, ?_⟩
      rw [h']; simp only [FileOp.name] at hn; rw [← hn]; simp [FileOp.apply]

theorem scheduled_split {bs₁ bs₂ : List (Batch S)} {l l' : List (FileOp S)} (h : Scheduled (bs₁ ++ bs₂) l) (hp : l' <+: l) :
    (∃ l₁, Scheduled bs₁ l₁ ∧ l' <+: l₁) ∨ ∃ l₁ l₂ l₂', Scheduled bs₁ l₁ ∧ Scheduled bs₂ l₂ ∧ l₂' <+: l₂ ∧ l' = l₁ ++ l₂' := by
  induction bs₁ generalizing l l' with
  | nil => exact .inr ⟨[], l, l', rfl, h, hp, rfl⟩
  | cons b bs ih =>
    obtain ⟨m₁, m₂, h1, h2, rfl⟩ := h
    by_cases hlen : l'.length ≤ m₁.length
    · exact .inl ⟨_, ⟨m₁, _, h1, scheduled_exists bs, rfl⟩, (List.prefix_of_prefix_length_le hp (List.prefix_append _ _) hlen).trans (List.prefix_append _ _)⟩
    · obtain ⟨m, rfl⟩ := List.prefix_of_prefix_length_le (List.prefix_append m₁ m₂) hp (by omega)
      rcases ih h2 ((List.prefix_append_right_inj _).1 hp) with ⟨l₁, q1, q2⟩ | ⟨l₁, l₂, l₂', q1, q2, q3, rfl⟩
      · exact .inl ⟨_, ⟨m₁, l₁, h1, q1, rfl⟩, (List.prefix_append_right_inj _).2 q2⟩
      · exact .inr ⟨_, l₂, l₂', ⟨m₁, l₁, h1, q1, rfl⟩, q2, q3, (List.append_assoc _ _ _).symm⟩

/-! ## What a run writes -/

theorem writeAll_keys (grid : List Date) (r : DayResults) (t : Date) (vs vs' : List Created) (h : writeAll grid r t vs = some vs') :
    vs'.map Created.key = vs.map Created.key := by
  induction vs generalizing vs' with
  | nil => simp only [writeAll, Option.some.injEq] at h; rw [← h]
  | cons a l ih =>
    simp only [writeAll] at h
    split at h
    · cases h
    · split at h
      · rename_i ds _ hl
        simp only [Option.some.injEq] at h
        rw [← h, List.map_cons, List.map_cons, ih _ hl]
      · cases h

theorem convertAll_keys (area cf : ℝ) (vs : List Created) : (convertAll area cf vs).map Created.key = vs.map Created.key := by
  simp [convertAll, Function.comp_def]

/-- A batch is the files of the output variables on a day on which they are saved, or the file of states. -/
theorem batch_cases (grid : List Date) (path sp : String) (area cf : ℝ) (r : DayResults) (s : S) (vs : List Created) (tr : List Event)
    (b : Batch S) (hb : b ∈ runBatches grid path sp area cf r s vs tr) :
    (∃ t, Event.flush t ∈ tr ∧ ∃ vs' : List Created, vs'.map Created.key = vs.map Created.key ∧
      b = vs'.map fun c => (outName path c.key t, .out c.data)) ∨
    ∃ t, Event.save t ∈ tr ∧ b = [(stateName sp t, .state s)] := by
  induction tr generalizing vs with
  | nil => simp [runBatches] at hb
  | cons e es ih =>
    have lift : ∀ vs₁ : List Created, vs₁.map Created.key = vs.map Created.key → b ∈ runBatches grid path sp area cf r s vs₁ es →
        (∃ t, Event.flush t ∈ e :: es ∧ ∃ vs' : List Created, vs'.map Created.key = vs.map Created.key ∧
          b = vs'.map fun c => (outName path c.key t, .out c.data)) ∨
        ∃ t, Event.save t ∈ e :: es ∧ b = [(stateName sp t, .state s)] := by
      intro vs₁ hk hb
      rcases ih vs₁ hb with ⟨t, h1, vs', h2, h3⟩ | ⟨t, h1, h2⟩
      · exact .inl ⟨t, by simp [h1], vs', h2.trans hk, h3⟩
      · exact .inr ⟨t, by simp [h1], h2⟩
    cases e with
    | sim t => exact lift vs rfl hb
    | write t =>
      simp only [runBatches] at hb
      split at hb
      · rename_i vs₁ h1
        exact lift vs₁ (writeAll_keys _ _ _ _ _ h1) hb
      · simp at hb
    | flush t =>
      simp only [runBatches, List.mem_cons] at hb
      rcases hb with rfl | hb
      · exact .inl ⟨t, by simp, _, convertAll_keys area cf vs, rfl⟩
      · exact lift _ (convertAll_keys area cf vs) hb
    | save t =>
      simp only [runBatches, List.mem_cons] at hb
      rcases hb with rfl | hb
      · exact .inr ⟨t, by simp, rfl⟩
      · exact lift vs rfl hb

theorem outAll_none (grid : List Date) (path : String) (area cf : ℝ) (r : DayResults) (tr : List Event) :
    tr.foldl (outAllStep grid path area cf r) none = none := by
  induction tr with
  | nil => rfl
  | cons e es ih => cases e <;> exact ih

theorem stateName_ne_outName (path sp key : String) (t u : Date) : stateName sp t ≠ outName path key u := by
  intro h
  have h1 : (stateName sp t).getLast? = some 'e' := by
    have : stateName sp t = (sp.toList ++ "restartwatergap_".toList ++ isoDate t ++ ".pickl".toList) ++ ['e'] := by
      simp [stateName]
    rw [this, List.getLast?_concat]
  have h2 : (outName path key u).getLast? = some 'c' := by
    have : ∃ l, outName path key u = l ++ ['c'] := by
      unfold outName
      split_ifs
      · exact ⟨path.toList ++ key.toList ++ ".n".toList, by simp⟩
      · exact ⟨path.toList ++ key.toList ++ '_' :: (isoDate u ++ ".n".toList), by simp⟩
    obtain ⟨l, hl⟩ := this
    rw [hl, List.getLast?_concat]
  rw [h, h2] at h1
  simp at h1

/-- The files on the disk are those that the output module has saved (C74). -/
theorem batches_files (grid : List Date) (path sp : String) (area cf : ℝ) (r : DayResults) (s : S) (tr : List Event) (vs : List Created)
    (files : Files) (o : OutAll) (h : tr.foldl (outAllStep grid path area cf r) (some ⟨vs, files⟩) = some o) (d : Disk S) (n : List Char)
    (hn : ∀ t, n ≠ stateName sp t) :
    (writeBatches (runBatches grid path sp area cf r s vs tr) d n = d n ∧ o.files n = files n) ∨
    ∃ x, o.files n = some x ∧ writeBatches (runBatches grid path sp area cf r s vs tr) d n = some (some (.out x)) := by
  induction tr generalizing vs files d with
  | nil =>
    simp only [List.foldl_nil, Option.some.injEq] at h
    rw [← h]; exact .inl ⟨rfl, rfl⟩
  | cons e es ih =>
    cases e with
    | sim t => exact ih vs files h d
    | write t =>
      simp only [List.foldl_cons, outAllStep] at h
      cases hw : writeAll grid r t vs with
      | none => rw [hw] at h; simp [outAll_none] at h
      | some vs' =>
        rw [hw] at h
        simp only [runBatches, hw]
        exact ih vs' files h d
    | flush t =>
      simp only [List.foldl_cons, outAllStep] at h
      have e : writeBatches (runBatches grid path sp area cf r s vs (Event.flush t :: es)) d =
          writeBatches (runBatches grid path sp area cf r s (convertAll area cf vs) es)
            (writeBatch ((convertAll area cf vs).map fun c => (outName path c.key t, .out c.data)) d) := rfl
      rw [e]
      have one : ∀ (us : List Created) (fs : Files) (d : Disk S),
          (writeBatch (us.map fun c => (outName path c.key t, .out c.data)) d n = d n ∧ saveAll path t us fs n = fs n) ∨
          ∃ x, saveAll path t us fs n = some x ∧
            writeBatch (us.map fun c => (outName path c.key t, .out c.data)) d n = some (some (.out x)) := by
        intro us
        induction us with
        | nil => intro fs d; exact .inl ⟨rfl, rfl⟩
        | cons a l ihl =>
          intro fs d
          rcases ihl (fun m => if m = outName path a.key t then some a.data else fs m)
            (Function.update d (outName path a.key t) (some (some (.out a.data)))) with ⟨q1, q2⟩ | q
          · by_cases hna : n = outName path a.key t
            · right
              refine ⟨a.data, ?_, ?_⟩
              · exact q2.trans (if_pos hna)
              · refine q1.trans ?_
                rw [hna, Function.update_self]
            · left
              refine ⟨q1.trans ?_, q2.trans (if_neg hna)⟩
              rw [Function.update_of_ne hna]
          · exact .inr q
      rcases ih _ _ h (writeBatch ((convertAll area cf vs).map fun c => (outName path c.key t, .out c.data)) d) with ⟨h1, h2⟩ | h1
      · rcases one (convertAll area cf vs) files d with ⟨q1, q2⟩ | ⟨x, q1, q2⟩
        · exact .inl ⟨h1.trans q1, h2.trans q2⟩
        · exact .inr ⟨x, h2.trans q1, h1.trans q2⟩
      · exact .inr h1
    | save t =>
      have e : writeBatches (runBatches grid path sp area cf r s vs (Event.save t :: es)) d =
          writeBatches (runBatches grid path sp area cf r s vs es) (Function.update d (stateName sp t) (some (some (.state s)))) := rfl
      rw [e]
      have h0 : (Function.update d (stateName sp t) (some (some (.state s)))) n = d n := Function.update_of_ne (hn t) _ _
      rcases ih vs files h (Function.update d (stateName sp t) (some (some (.state s)))) with ⟨h1, h2⟩ | h1
      · exact .inl ⟨h1.trans h0, h2⟩
      · exact .inr h1

theorem save_batch (grid : List Date) (path sp : String) (area cf : ℝ) (r : DayResults) (s : S) (tr : List Event) (vs : List Created)
    (files : Files) (o : OutAll) (h : tr.foldl (outAllStep grid path area cf r) (some ⟨vs, files⟩) = some o) (t : Date)
    (ht : Event.save t ∈ tr) : [(stateName sp t, .state s)] ∈ runBatches grid path sp area cf r s vs tr := by
  induction tr generalizing vs files with
  | nil => simp at ht
  | cons e es ih =>
    cases e with
    | sim u => exact ih vs files h (by simpa using ht)
    | write u =>
      simp only [List.foldl_cons, outAllStep] at h
      cases hw : writeAll grid r u vs with
      | none => rw [hw] at h; simp [outAll_none] at h
      | some vs' =>
        rw [hw] at h
        simp only [runBatches, hw]
        exact ih vs' files h (by simpa using ht)
    | flush u => exact List.mem_cons_of_mem _ (ih _ _ h (by simpa using ht))
    | save u =>
      rcases List.mem_cons.1 ht with q | q
      · cases q; exact List.mem_cons_self
      · exact List.mem_cons_of_mem _ (ih vs files h q)

theorem batch_nodup (grid : List Date) (path sp : String) (area cf : ℝ) (r : DayResults) (s : S) (vs : List Created) (tr : List Event)
    (hk : (vs.map Created.key).Nodup) (hpl : ∀ t, Event.flush t ∈ tr → t.plain) :
    ∀ b ∈ runBatches grid path sp area cf r s vs tr, (b.map Prod.fst).Nodup := by
  intro b hb
  rcases batch_cases grid path sp area cf r s vs tr b hb with ⟨t, ht, vs', h1, rfl⟩ | ⟨t, -, rfl⟩
  · have e : (vs'.map fun c => ((outName path c.key t, .out c.data) : List Char × FileData S)).map Prod.fst =
        (vs'.map Created.key).map fun k => outName path k t := by simp [Function.comp_def]
    rw [e, h1]
    exact hk.map fun a b q => (outName_inj path a b t t (hpl t ht) (hpl t ht) q).1
  · simp

/-- Apart from `smax`, every file is written at most once. -/
theorem batch_unique (grid : List Date) (path sp : String) (area cf : ℝ) (r : DayResults) (s : S) (vs : List Created) (tr : List Event)
    (hk : (vs.map Created.key).Nodup) (hpl : ∀ t, Event.flush t ∈ tr → t.plain) (hfl : (flushed tr).Nodup) :
    ∀ b ∈ runBatches grid path sp area cf r s vs tr, ∀ w ∈ b, ∀ b' ∈ runBatches grid path sp area cf r s vs tr, ∀ w' ∈ b',
      w.1 = w'.1 → (∀ t, w.1 ≠ outName path "smax" t) → w.2 = w'.2 := by
  induction tr generalizing vs with
  | nil => simp [runBatches]
  | cons e es ih =>
    have hpl' : ∀ t, Event.flush t ∈ es → t.plain := fun t ht => hpl t (by simp [ht])
    cases e with
    | sim t => exact ih vs hk hpl' hfl
    | write t =>
      simp only [runBatches]
      split
      · rename_i vs' h1
        exact ih vs' (by rw [writeAll_keys _ _ _ _ _ h1]; exact hk) hpl' hfl
      · simp
    | flush t =>
      have hfl' : t ∉ flushed es ∧ (flushed es).Nodup := by
        have : flushed (Event.flush t :: es) = t :: flushed es := rfl
        rw [this] at hfl
        exact List.nodup_cons.1 hfl
      have ih' := ih (convertAll area cf vs) (by rw [convertAll_keys]; exact hk) hpl' hfl'.2
      have hd : ∀ w ∈ (convertAll area cf vs).map (fun c => ((outName path c.key t, .out c.data) : List Char × FileData S)),
          ∀ b' ∈ runBatches grid path sp area cf r s (convertAll area cf vs) es, ∀ w' ∈ b',
          w.1 = w'.1 → (∀ t, w.1 ≠ outName path "smax" t) → False := by
        intro w hw b' hb' w' hw' q hs
        obtain ⟨c, -, rfl⟩ := List.mem_map.1 hw
        rcases batch_cases grid path sp area cf r s _ es b' hb' with ⟨t', ht', vs', -, rfl⟩ | ⟨t', -, rfl⟩
        · obtain ⟨c', -, rfl⟩ := List.mem_map.1 hw'
          have := (outName_inj path _ _ t t' (hpl t (by simp)) (hpl' t' ht') q).2
            (fun hc => hs t (by show outName path c.key t = _; rw [hc]))
          subst this
          exact hfl'.1 (List.mem_filterMap.2 ⟨_, ht', rfl⟩)
        · rw [List.mem_singleton.1 hw'] at q
          exact stateName_ne_outName _ _ _ _ _ q.symm
      intro b hb w hw b' hb' w' hw' q hs
      rcases List.mem_cons.1 hb with rfl | hb <;> rcases List.mem_cons.1 hb' with rfl | hb'
      · have := nodup_fst (batch_nodup grid path sp area cf r s vs (.flush t :: es) hk hpl _ List.mem_cons_self) hw hw' q
        rw [this]
      · exact absurd (hd w hw b' hb' w' hw' q hs) id
      · exact absurd (hd w' hw' b hb w hw q.symm (q ▸ hs)) id
      · exact ih' b hb w hw b' hb' w' hw' q hs
    | save t =>
      have hd : ∀ b' ∈ runBatches grid path sp area cf r s vs es, ∀ w' ∈ b', stateName sp t = w'.1 → w'.2 = .state s := by
        intro b' hb' w' hw' q
        rcases batch_cases grid path sp area cf r s _ es b' hb' with ⟨t', ht', vs', -, rfl⟩ | ⟨t', -, rfl⟩
        · obtain ⟨c', -, rfl⟩ := List.mem_map.1 hw'
          exact absurd q (stateName_ne_outName _ _ _ _ _)
        · rw [List.mem_singleton.1 hw']
      intro b hb w hw b' hb' w' hw' q hs
      rcases List.mem_cons.1 hb with rfl | hb <;> rcases List.mem_cons.1 hb' with rfl | hb'
      · rw [List.mem_singleton.1 hw, List.mem_singleton.1 hw']
      · rw [List.mem_singleton.1 hw] at q ⊢
        exact (hd b' hb' w' hw' q).symm
      · rw [List.mem_singleton.1 hw'] at q ⊢
        exact hd b hb w hw q.symm
      · exact ih vs hk hpl' hfl b hb w hw b' hb' w' hw' q hs

theorem batches_append (grid : List Date) (path sp : String) (area cf : ℝ) (r : DayResults) (s : S) (tr₁ tr₂ : List Event) (vs : List Created)
    (files : Files) (o : OutAll) (h : (tr₁ ++ tr₂).foldl (outAllStep grid path area cf r) (some ⟨vs, files⟩) = some o) :
    ∃ vs₁ : List Created, vs₁.map Created.key = vs.map Created.key ∧ runBatches grid path sp area cf r s vs (tr₁ ++ tr₂) =
      runBatches grid path sp area cf r s vs tr₁ ++ runBatches grid path sp area cf r s vs₁ tr₂ := by
  induction tr₁ generalizing vs files with
  | nil => exact ⟨vs, rfl, rfl⟩
  | cons e es ih =>
    cases e with
    | sim u => exact ih vs files h
    | write u =>
      simp only [List.cons_append, List.foldl_cons, outAllStep] at h
      cases hw : writeAll grid r u vs with
      | none => rw [hw] at h; simp [outAll_none] at h
      | some vs' =>
        rw [hw] at h
        simp only [List.cons_append, runBatches, hw]
        obtain ⟨vs₁, h1, h2⟩ := ih vs' files h
        exact ⟨vs₁, h1.trans (writeAll_keys _ _ _ _ _ hw), h2⟩
    | flush u =>
      obtain ⟨vs₁, h1, h2⟩ := ih _ _ h
      exact ⟨vs₁, h1.trans (convertAll_keys _ _ _), by simp only [List.cons_append, runBatches, h2]⟩
    | save u =>
      obtain ⟨vs₁, h1, h2⟩ := ih vs files h
      exact ⟨vs₁, h1, by simp only [List.cons_append, runBatches, h2]⟩

end generic

/-! ## Dates -/

theorem prev_valid {t : Date} (h : t.Valid) : t.prev.Valid := by
  obtain ⟨y, m, d⟩ := t
  obtain ⟨h1, h2, h3, h4⟩ := h
  simp only at h1 h2 h3 h4
  unfold Date.prev
  simp only
  split_ifs with a b
  · exact ⟨h1, h2, by simp only; omega, by simp only; omega⟩
  · refine ⟨by simp only; omega, by simp only; omega, ?_, le_refl _⟩
    simp only; unfold daysInMonth; split_ifs <;> omega
  · refine ⟨by simp, by simp, by simp, ?_⟩
    simp [daysInMonth]

theorem prev_next {t : Date} (h : t.Valid) (hy : 0 < t.y) : t.prev.next = t := by
  obtain ⟨y, m, d⟩ := t
  obtain ⟨h1, h2, h3, h4⟩ := h
  simp only at h1 h2 h3 h4 hy
  unfold Date.prev
  simp only
  split_ifs with a b
  · unfold Date.next
    simp only
    rw [if_pos (by omega)]
    congr 1; omega
  · unfold Date.next
    simp only
    rw [if_neg (by omega), if_pos (by omega)]
    congr 1 <;> omega
  · unfold Date.next
    simp only [daysInMonth]
    norm_num
    omega

theorem next_prev {k : Date} (h : k.Valid) : k.next.prev = k := by
  have hv := next_valid h
  have hy : 0 < k.next.y ∨ k.next.y = 0 := by omega
  obtain ⟨y, m, d⟩ := k
  obtain ⟨h1, h2, h3, h4⟩ := h
  simp only at h1 h2 h3 h4
  unfold Date.next
  simp only
  split_ifs with a b
  · unfold Date.prev; simp only; rw [if_pos (by omega)]; congr 1
  · unfold Date.prev; simp only; rw [if_neg (by omega), if_pos (by omega)]
    have : d = daysInMonth y m := by omega
    simp [this]
  · unfold Date.prev; simp only
    have hm : m = 12 := by omega
    subst hm
    have : daysInMonth y 12 = 31 := by simp [daysInMonth]
    simp; omega

theorem plain_of_valid {t : Date} (h : t.Valid) (hy : t.y < 10000) : t.plain := by
  obtain ⟨h1, h2, h3, h4⟩ := h
  have hm : daysInMonth t.y t.m ≤ 31 := by unfold daysInMonth; split_ifs <;> omega
  exact ⟨hy, by omega, by omega⟩

theorem stateName_inj (sp : String) (t u : Date) (ht : t.plain) (hu : u.plain) (h : stateName sp t = stateName sp u) : t = u := by
  unfold stateName at h
  have h := List.append_cancel_left (List.append_cancel_left h)
  exact iso_inj t u ht hu (List.append_cancel_right h)

/-! ## The plan of a run -/

section run
variable {ι M R O : Type}

/-- The files a run of the period `c` writes. -/
def Installation.writes (K : Installation ι M R O) (c : RunCfg) (n : List Char) : Prop :=
  (∃ w ∈ outputTable, w.selected K.cfg ∧ ∃ l ∈ saveDays c, n = outName K.path w.key l) ∨
    (c.saveStates = true ∧ n = stateName K.statesPath c.fin)

theorem trace_events (c : RunCfg) (h : GoodPeriod c) (hspin : 0 ≤ c.spin) (st : Setup) (hs : setup c = .ok st) (n : ℕ)
    (hd : (runLoop c st n).done = true) :
    flushed (runLoop c st n).trace = saveDays c ∧ saved (runLoop c st n).trace = (if c.saveStates then [c.fin] else []) ∧
      (c.saveStates = true → ∃ tr, (runLoop c st n).trace = tr ++ [.save c.fin]) := by
  obtain ⟨pre, main, h1, h2, -, -, h3, h4, h5⟩ := C31_outputs c h hspin st hs n hd
  have e1 : flushed pre = [] := by
    unfold flushed
    rw [List.filterMap_eq_nil_iff]
    intro e he
    obtain ⟨t, rfl⟩ := h2 e he
    rfl
  have e2 : saved pre = [] := by
    unfold saved
    rw [List.filterMap_eq_nil_iff]
    intro e he
    obtain ⟨t, rfl⟩ := h2 e he
    rfl
  rw [h1]
  refine ⟨?_, ?_, fun hsv => ?_⟩
  · have : flushed (pre ++ main) = flushed pre ++ flushed main := List.filterMap_append
    rw [this, e1, h3]; rfl
  · have : saved (pre ++ main) = saved pre ++ saved main := List.filterMap_append
    rw [this, e2, h4]; rfl
  · obtain ⟨m, hm⟩ := List.getLast?_eq_some_iff.1 (h5 hsv)
    exact ⟨pre ++ m, by rw [hm, List.append_assoc]⟩

theorem mem_flushed (tr : List Event) (t : Date) : t ∈ flushed tr ↔ Event.flush t ∈ tr := by
  unfold flushed
  rw [List.mem_filterMap]
  constructor
  · rintro ⟨e, he, h⟩
    cases e <;> simp_all
  · exact fun h => ⟨_, h, rfl⟩

theorem mem_saved (tr : List Event) (t : Date) : t ∈ saved tr ↔ Event.save t ∈ tr := by
  unfold saved
  rw [List.mem_filterMap]
  constructor
  · rintro ⟨e, he, h⟩
    cases e <;> simp_all
  · exact fun h => ⟨_, h, rfl⟩

/-- All there is to know about what a run writes. -/
structure PlanFacts (K : Installation ι M R O) (c : RunCfg) (restart : Bool) (d : Disk (SavedPart ι R))
    (bs : List (Batch (SavedPart ι R))) (outs : List O) (s : SavedPart ι R) (vs : List Created) (tr : List Event) (o : OutAll) : Prop where
  run : K.env.run c restart (K.stateDir d c.start) = .ok (outs, s)
  eq : bs = runBatches (gridTime c) K.path K.statesPath K.area K.cf (K.view.results c.start outs) s vs tr
  keys : (vs.map Created.key).Nodup
  sel : ∀ k ∈ vs.map Created.key, ∃ w ∈ outputTable, w.key = k ∧ w.selected K.cfg
  flushed : flushed tr = saveDays c
  saved : saved tr = if c.saveStates then [c.fin] else []
  last : c.saveStates = true → ∃ tr', tr = tr' ++ [.save c.fin]
  ok : tr.foldl (outAllStep (gridTime c) K.path K.area K.cf (K.view.results c.start outs)) (some ⟨vs, fun _ => none⟩) = some o
  axis : ∀ w ∈ outputTable, w.selected K.cfg → w.key ≠ "smax" → ∀ l ∈ saveDays c,
    ∃ v, o.files (outName K.path w.key l) = some (.axis v) ∧
      (∀ t ∈ daysBetween c.start c.fin, t.y = l.y → t ∈ v.axis) ∧
      ∀ t, v.val t = if t ∈ daysBetween c.start c.fin ∧ t.y = l.y
        then (w.daily (K.view.results c.start outs) t).map (baseUnits w.group w.key K.area K.cf) else none
  smax : ∀ w ∈ outputTable, w.selected K.cfg → w.key = "smax" → ∀ t,
    o.files (outName K.path "smax" t) = some (.const (if (⟨c.fin.y, 1, 1⟩ : Date) ∈ daysBetween c.start c.fin
      then w.daily (K.view.results c.start outs) ⟨c.fin.y, 1, 1⟩ else some 0))

theorem plan_facts (K : Installation ι M R O) {c : RunCfg} (h : GoodPeriod c) (hspin : 0 ≤ c.spin) (hy : c.fin.y < 10000)
    (hc : outSections K.cfg) (restart : Bool) (d : Disk (SavedPart ι R)) (bs : List (Batch (SavedPart ι R)))
    (hp : K.plan c restart d = some bs) : ∃ outs s vs tr o, PlanFacts K c restart d bs outs s vs tr o := by
  unfold Installation.plan at hp
  split at hp
  · rename_i st outs s ks hs hr hk
    simp only [Option.some.injEq] at hp
    obtain ⟨st', hs', hdone, -⟩ := C30_days_simulated c h hspin
    rw [hs] at hs'; cases hs'
    have hd := (hdone (c.spin.toNat + 1)).2 (Nat.lt_succ_self _)
    obtain ⟨o, ho, h1, h2, -⟩ := C74_saved c h hspin hy st hs _ hd K.cfg hc K.path K.area K.cf (K.view.results c.start outs) (fun _ => none)
    obtain ⟨knd, kmem⟩ := (C74_selected K.cfg).2 ks hk
    obtain ⟨e1, e2, e3⟩ := trace_events c h hspin st hs _ hd
    refine ⟨outs, s, _, _, o, hr, hp.symm, ?_, ?_, e1, e2, e3, ?_, h1, h2⟩
    · simpa [Function.comp_def] using knd
    · intro k hk'
      simp only [List.map_map, Function.comp_def, List.mem_map] at hk'
      obtain ⟨⟨g, k'⟩, hm, rfl⟩ := hk'
      obtain ⟨w, hw, -, e, q⟩ := (kmem g k').1 hm
      exact ⟨w, hw, e, q⟩
    · simpa only [outAllRun, hk] using ho
  · cases hp

namespace PlanFacts
variable {K : Installation ι M R O} {c : RunCfg} {restart : Bool} {d : Disk (SavedPart ι R)} {bs : List (Batch (SavedPart ι R))}
  {outs : List O} {s : SavedPart ι R} {vs : List Created} {tr : List Event} {o : OutAll}

theorem plain (f : PlanFacts K c restart d bs outs s vs tr o) (h : GoodPeriod c) (hy : c.fin.y < 10000) (t : Date) (ht : Event.flush t ∈ tr) :
    t.plain := by
  rw [← mem_flushed, f.flushed] at ht
  exact saveDays_plain c h hy t ht

theorem nodup (f : PlanFacts K c restart d bs outs s vs tr o) (h : GoodPeriod c) (hy : c.fin.y < 10000) :
    ∀ b ∈ bs, (b.map Prod.fst).Nodup := by
  rw [f.eq]; exact batch_nodup _ _ _ _ _ _ _ _ _ f.keys (f.plain h hy)

theorem names (f : PlanFacts K c restart d bs outs s vs tr o) (n : List Char) (hn : n ∈ batchNames bs) : K.writes c n := by
  obtain ⟨b, hb, hn⟩ := List.mem_flatMap.1 hn
  obtain ⟨w, hw, rfl⟩ := List.mem_map.1 hn
  rw [f.eq] at hb
  rcases batch_cases _ _ _ _ _ _ _ _ _ _ hb with ⟨t, ht, vs', h1, rfl⟩ | ⟨t, ht, rfl⟩
  · obtain ⟨x, hx, rfl⟩ := List.mem_map.1 hw
    obtain ⟨w, hw, e, q⟩ := f.sel x.key (h1 ▸ List.mem_map_of_mem hx)
    rw [← mem_flushed, f.flushed] at ht
    exact .inl ⟨w, hw, q, t, ht, by rw [e]⟩
  · rw [List.mem_singleton.1 hw]
    rw [← mem_saved, f.saved] at ht
    split_ifs at ht with q
    · rw [List.mem_singleton.1 ht]; exact .inr ⟨q, rfl⟩
    · simp at ht

theorem saveDays_nodup (h : GoodPeriod c) : (saveDays c).Nodup := (daysFrom_nodup h.vs _).filter _

theorem unique (f : PlanFacts K c restart d bs outs s vs tr o) (h : GoodPeriod c) (hy : c.fin.y < 10000) :
    ∀ b ∈ bs, ∀ w ∈ b, ∀ b' ∈ bs, ∀ w' ∈ b', w.1 = w'.1 → (∀ t, w.1 ≠ outName K.path "smax" t) → w.2 = w'.2 := by
  rw [f.eq]; exact batch_unique _ _ _ _ _ _ _ _ _ f.keys (f.plain h hy) (f.flushed ▸ saveDays_nodup h)

/-- The values on the disk after a complete run. -/
theorem final_axis (f : PlanFacts K c restart d bs outs s vs tr o) (d' : Disk (SavedPart ι R)) (n : List Char) (x : OutData)
    (hn : ∀ t, n ≠ stateName K.statesPath t) (hx : o.files n = some x) : writeBatches bs d' n = some (some (.out x)) := by
  rw [f.eq]
  rcases batches_files _ K.path K.statesPath _ _ _ s tr vs _ o f.ok d' n hn with ⟨-, h2⟩ | ⟨y, h1, h2⟩
  · rw [hx] at h2; cases h2
  · rw [hx] at h1; cases h1; exact h2

theorem final_state (f : PlanFacts K c restart d bs outs s vs tr o) (hsave : c.saveStates = true) (d' : Disk (SavedPart ι R)) :
    writeBatches bs d' (stateName K.statesPath c.fin) = some (some (.state s)) := by
  have hb : [(stateName K.statesPath c.fin, FileData.state s)] ∈ bs := by
    rw [f.eq]
    refine save_batch _ _ _ _ _ _ _ tr vs _ o f.ok c.fin ?_
    rw [← mem_saved, f.saved, if_pos hsave]; simp
  have hn : stateName K.statesPath c.fin ∈ batchNames bs := List.mem_flatMap.2 ⟨_, hb, by simp⟩
  obtain ⟨b, hb', w, hw, h1, h2⟩ := writeBatches_val bs _ hn
  rw [h2]
  rw [f.eq] at hb'
  rcases batch_cases _ _ _ _ _ _ _ _ _ _ hb' with ⟨t, ht, vs', -, rfl⟩ | ⟨t, ht, rfl⟩
  · obtain ⟨x, -, rfl⟩ := List.mem_map.1 hw
    exact absurd h1.symm (stateName_ne_outName _ _ _ _ _)
  · rw [List.mem_singleton.1 hw]

end PlanFacts

theorem plan_congr (K : Installation ι M R O) (c : RunCfg) (restart : Bool) (d d' : Disk (SavedPart ι R))
    (h : d (stateName K.statesPath c.start.prev) = d' (stateName K.statesPath c.start.prev)) :
    K.plan c restart d = K.plan c restart d' := by
  unfold Installation.plan Installation.stateDir
  rw [h]

/-- A run does not write the file of states it starts from. -/
theorem not_writes_start (K : Installation ι M R O) {c : RunCfg} (h : GoodPeriod c) (hy : c.fin.y < 10000) (hy0 : 0 < c.start.y) :
    ¬ K.writes c (stateName K.statesPath c.start.prev) := by
  have hv := prev_valid h.vs
  have ho := next_ord hv
  rw [prev_next h.vs hy0] at ho
  have hle : c.start.prev.y ≤ c.fin.y := by
    by_contra hgt
    have a1 := (ord_in_year hv).1
    have a2 := (ord_in_year h.vf).2
    have := daysBeforeYear_mono (show c.fin.y < c.start.prev.y by omega)
    have := h.h2
    omega
  rintro (⟨w, -, -, l, -, e⟩ | ⟨-, e⟩)
  · exact stateName_ne_outName _ _ _ _ _ e
  · have := stateName_inj _ _ _ (plain_of_valid hv (by omega)) (plain_of_valid h.vf hy) e
    have h2 := h.h2
    rw [this] at ho
    omega

theorem attempt_kept (K : Installation ι M R O) {c : RunCfg} (h : GoodPeriod c) (hspin : 0 ≤ c.spin) (hy : c.fin.y < 10000)
    (hc : outSections K.cfg) (restart : Bool) {d e : Disk (SavedPart ι R)} (ha : K.attempt c restart d e) (n : List Char)
    (hn : ¬ K.writes c n) : e n = d n := by
  rcases ha with ⟨-, rfl⟩ | ⟨bs, l, l', hp, hs, hpre, rfl⟩
  · rfl
  · obtain ⟨outs, s, vs, tr, o, f⟩ := plan_facts K h hspin hy hc restart d bs hp
    exact scheduled_prefix_other hs hpre n (fun q => hn (f.names n q)) d

theorem attempts_kept (K : Installation ι M R O) {c : RunCfg} (h : GoodPeriod c) (hspin : 0 ≤ c.spin) (hy : c.fin.y < 10000)
    (hc : outSections K.cfg) (restart : Bool) {d e : Disk (SavedPart ι R)} (ha : Relation.ReflTransGen (K.attempt c restart) d e) (n : List Char)
    (hn : ¬ K.writes c n) : e n = d n := by
  induction ha with
  | refl => rfl
  | tail _ h2 ih => exact (attempt_kept K h hspin hy hc restart h2 n hn).trans ih

/-- Files change only by complete batches: outside of the files of the plan two disks that agree there stay so. -/
theorem batchNames_iff_final (bs : List (Batch (SavedPart ι R))) (d d' : Disk (SavedPart ι R)) (h : ∀ n, n ∉ batchNames bs → d n = d' n) :
    writeBatches bs d = writeBatches bs d' := by
  funext n
  by_cases hn : n ∈ batchNames bs
  · obtain ⟨b, -, w, -, -, h2⟩ := writeBatches_val bs n hn
    rw [h2, h2]
  · rw [writeBatches_other bs n hn, writeBatches_other bs n hn, h n hn]

theorem attempts_batches (K : Installation ι M R O) {c : RunCfg} (h : GoodPeriod c) (hspin : 0 ≤ c.spin) (hy : c.fin.y < 10000)
    (hy0 : 0 < c.start.y) (hc : outSections K.cfg) (restart : Bool) {d e : Disk (SavedPart ι R)}
    (ha : Relation.ReflTransGen (K.attempt c restart) d e) :
    K.plan c restart e = K.plan c restart d ∧ ∀ bs, K.plan c restart d = some bs → ∀ n, n ∉ batchNames bs → e n = d n := by
  have hplan : ∀ e, Relation.ReflTransGen (K.attempt c restart) d e → K.plan c restart e = K.plan c restart d := fun e ha =>
    plan_congr K c restart _ _ (attempts_kept K h hspin hy hc restart ha _ (not_writes_start K h hy hy0))
  refine ⟨hplan e ha, fun bs hbs n hn => ?_⟩
  induction ha with
  | refl => rfl
  | tail h1 h2 ih =>
    rw [← ih]
    rcases h2 with ⟨-, rfl⟩ | ⟨bs', l, l', hp, hs, hpre, rfl⟩
    · rfl
    · rw [hplan _ h1, hbs] at hp
      cases hp
      exact scheduled_prefix_other hs hpre n hn _

/-! ## C94 -/

/-- **C94 (order of the writers).**  What is on the disk after a complete run does not depend on the order in which the processes that write
the files make progress. -/
theorem C94_order_of_writers (K : Installation ι M R O) (c : RunCfg) (h : GoodPeriod c) (hspin : 0 ≤ c.spin) (hy : c.fin.y < 10000)
    (hc : outSections K.cfg) (restart : Bool) (d e e' : Disk (SavedPart ι R)) (h1 : K.completes c restart d e)
    (h2 : K.completes c restart d e') : e = e' := by
  obtain ⟨bs, l, hp, hs, rfl⟩ := h1
  obtain ⟨bs', l', hp', hs', rfl⟩ := h2
  rw [hp] at hp'; cases hp'
  obtain ⟨outs, s, vs, tr, o, f⟩ := plan_facts K h hspin hy hc restart d bs hp
  rw [scheduled_full (f.nodup h hy) hs, scheduled_full (f.nodup h hy) hs']

/-- **C94.**  However often a run has been interrupted, and at whatever step of whichever writer: if it is then repeated to its end, the disk is
the same, file by file, as if it had run through at once. -/
theorem C94_repeated (K : Installation ι M R O) (c : RunCfg) (h : GoodPeriod c) (hspin : 0 ≤ c.spin) (hy : c.fin.y < 10000)
    (hy0 : 0 < c.start.y) (hc : outSections K.cfg) (restart : Bool) (d d' e : Disk (SavedPart ι R))
    (ha : Relation.ReflTransGen (K.attempt c restart) d d') : K.completes c restart d' e ↔ K.completes c restart d e := by
  obtain ⟨hpl, hoth⟩ := attempts_batches K h hspin hy hy0 hc restart ha
  constructor
  all_goals
    rintro ⟨bs, l, hp, hs, rfl⟩
    refine ⟨bs, l, by rw [← hp, hpl], hs, ?_⟩
    have hp' : K.plan c restart d = some bs := by first | exact hp | rw [← hpl]; exact hp
    obtain ⟨outs, s, vs, tr, o, f⟩ := plan_facts K h hspin hy hc restart d bs hp'
    rw [scheduled_full (f.nodup h hy) hs, scheduled_full (f.nodup h hy) hs]
    first
    | exact batchNames_iff_final bs _ _ (hoth bs hp')
    | exact (batchNames_iff_final bs _ _ (hoth bs hp')).symm

/-- **C94.**  A run can be repeated after any interruptions: if the states it starts from were complete, they still are. -/
theorem C94_can_be_repeated (K : Installation ι M R O) (c : RunCfg) (h : GoodPeriod c) (hspin : 0 ≤ c.spin) (hy : c.fin.y < 10000)
    (hy0 : 0 < c.start.y) (hc : outSections K.cfg) (restart : Bool) (d d' : Disk (SavedPart ι R))
    (hr : restart = true → ∃ s, d (stateName K.statesPath c.start.prev) = some (some (.state s)))
    (ha : Relation.ReflTransGen (K.attempt c restart) d d') : ∃ e, K.completes c restart d' e := by
  obtain ⟨hpl, -⟩ := attempts_batches K h hspin hy hy0 hc restart ha
  obtain ⟨st, hst, -⟩ := C30_days_simulated c h hspin
  obtain ⟨ks, hks⟩ := Option.ne_none_iff_exists'.1 ((C74_selected K.cfg).1.2 hc)
  have hrun : ∃ outs s, K.env.run c restart (K.stateDir d c.start) = .ok (outs, s) := by
    cases restart with
    | false => exact ⟨_, _, run_fresh K.env h _⟩
    | true =>
      obtain ⟨s, hs⟩ := hr rfl
      have : K.stateDir d c.start = [(c.start.prev, s)] := by simp only [Installation.stateDir, hs]
      rw [this]
      exact ⟨_, _, run_restarted K.env h _ _ (prev_next h.vs hy0)⟩
  obtain ⟨outs, s, hrun⟩ := hrun
  have : ∃ bs, K.plan c restart d = some bs := by
    unfold Installation.plan
    rw [hst, hrun, hks]
    exact ⟨_, rfl⟩
  obtain ⟨bs, hbs⟩ := this
  exact ⟨_, bs, _, hpl.trans hbs, scheduled_exists bs, rfl⟩

/-- **C94 (at every moment).**  Whenever a run is interrupted, every file is as it was before the run, or not complete, or as it will be after a
complete run (`smax.nc`, which is written every year, aside); and only the files of the selected outputs for the years of the period and the
states at its end are touched. -/
theorem C94_at_every_moment (K : Installation ι M R O) (c : RunCfg) (h : GoodPeriod c) (hspin : 0 ≤ c.spin) (hy : c.fin.y < 10000)
    (hc : outSections K.cfg) (restart : Bool) (d d' e : Disk (SavedPart ι R)) (ha : K.attempt c restart d d')
    (he : K.completes c restart d e) (n : List Char) :
    (¬ K.writes c n → d' n = d n ∧ e n = d n) ∧
    ((∀ t, n ≠ outName K.path "smax" t) → d' n = d n ∨ d' n = some none ∨ d' n = e n) := by
  obtain ⟨bs, m, hp, hs, rfl⟩ := he
  obtain ⟨outs, s, vs, tr, o, f⟩ := plan_facts K h hspin hy hc restart d bs hp
  refine ⟨fun hn => ⟨attempt_kept K h hspin hy hc restart ha n hn, scheduled_prefix_other hs (List.prefix_refl _) n (fun q => hn (f.names n q)) d⟩,
    fun hn => ?_⟩
  rcases ha with ⟨-, rfl⟩ | ⟨bs', l, l', hp', hs', hpre, rfl⟩
  · exact .inl rfl
  · rw [hp] at hp'; cases hp'
    rcases scheduled_prefix_val hs' hpre n d with q | q | ⟨b, hb, w, hw, rfl, q⟩
    · exact .inl q
    · exact .inr (.inl q)
    · right; right
      rw [q, scheduled_full (f.nodup h hy) hs]
      obtain ⟨b', hb', w', hw', h1, h2⟩ := writeBatches_val bs w.1 (List.mem_flatMap.2 ⟨b, hb, List.mem_map_of_mem hw⟩)
      rw [h2, f.unique h hy b hb w hw b' hb' w' hw' h1.symm hn]

theorem saveDays_sorted {c : RunCfg} (h : GoodPeriod c) : (saveDays c).Pairwise fun a b => a.ord < b.ord := by
  refine List.Pairwise.filter _ ?_
  have h1 := (C30_calendar c.start c.fin h.vs h.vf).2.2
  have hv : ∀ t ∈ daysBetween c.start c.fin, t.Valid := fun t ht => ((mem_daysBetween h.vs _ _).1 ht).1
  exact List.Pairwise.imp_of_mem (fun {a b} ha hb q => ord_lt_of_lex (hv a ha) (hv b hb) q) h1

/-- If a later file has been touched, an earlier one is final. -/
theorem ordered {K : Installation ι M R O} {c : RunCfg} {restart : Bool} {d : Disk (SavedPart ι R)}
    {bs : List (Batch (SavedPart ι R))} {outs : List O} {s : SavedPart ι R} {vs : List Created} {tr : List Event} {o : OutAll}
    (f : PlanFacts K c restart d bs outs s vs tr o) (h : GoodPeriod c) (hy : c.fin.y < 10000)
    (tr₁ tr₂ : List Event) (e : tr = tr₁ ++ tr₂) (n n' : List Char)
    (h1 : (∀ t, n' ≠ stateName K.statesPath t) ∨ saved tr₁ = []) (h1' : ∀ t ∈ flushed tr₁, ∀ k, n' ≠ outName K.path k t)
    (h2 : ∀ t, n ≠ stateName K.statesPath t) (h2' : ∀ t ∈ flushed tr₂, ∀ k, n ≠ outName K.path k t)
    (l l' : List (FileOp (SavedPart ι R))) (hs : Scheduled bs l) (hpre : l' <+: l) (hch : applyOps l' d n' ≠ d n') :
    applyOps l' d n = writeBatches bs d n := by
  have hok := f.ok
  rw [e] at hok
  obtain ⟨vs₁, hk, happ⟩ := batches_append (gridTime c) K.path K.statesPath K.area K.cf (K.view.results c.start outs) s tr₁ tr₂ vs _ o hok
  have hbs := f.eq
  rw [e, happ] at hbs
  have hnd := f.nodup h hy
  generalize hb1 : runBatches (gridTime c) K.path K.statesPath K.area K.cf (K.view.results c.start outs) s vs tr₁ = b1 at hbs
  generalize hb2 : runBatches (gridTime c) K.path K.statesPath K.area K.cf (K.view.results c.start outs) s vs₁ tr₂ = b2 at hbs
  subst hbs
  have q1 : n' ∉ batchNames b1 := by
    intro hn
    obtain ⟨b, hb, hn⟩ := List.mem_flatMap.1 hn
    obtain ⟨w, hw, rfl⟩ := List.mem_map.1 hn
    rw [← hb1] at hb
    rcases batch_cases _ _ _ _ _ _ _ _ _ _ hb with ⟨t, ht, vs', -, rfl⟩ | ⟨t, ht, rfl⟩
    · obtain ⟨x, -, rfl⟩ := List.mem_map.1 hw
      exact h1' t ((mem_flushed _ _).2 ht) x.key rfl
    · rw [List.mem_singleton.1 hw] at h1
      rcases h1 with h1 | h1
      · exact h1 t rfl
      · rw [← mem_saved, h1] at ht; simp at ht
  have q2 : n ∉ batchNames b2 := by
    intro hn
    obtain ⟨b, hb, hn⟩ := List.mem_flatMap.1 hn
    obtain ⟨w, hw, rfl⟩ := List.mem_map.1 hn
    rw [← hb2] at hb
    rcases batch_cases _ _ _ _ _ _ _ _ _ _ hb with ⟨t, ht, vs', -, rfl⟩ | ⟨t, ht, rfl⟩
    · obtain ⟨x, -, rfl⟩ := List.mem_map.1 hw
      exact h2' t ((mem_flushed _ _).2 ht) x.key rfl
    · rw [List.mem_singleton.1 hw] at h2
      exact h2 t rfl
  rcases scheduled_split hs hpre with ⟨l₁, s1, s2⟩ | ⟨l₁, l₂, l₂', s1, s2, s3, rfl⟩
  · exact absurd (scheduled_prefix_other s1 s2 n' q1 d) hch
  · rw [applyOps_append, scheduled_prefix_other s2 s3 n q2]
    have : writeBatches (b1 ++ b2) d = writeBatches b2 (writeBatches b1 d) := List.foldl_append ..
    rw [this, writeBatches_other b2 n q2, scheduled_full (fun b hb => hnd b (by simp [hb])) s1]

/-- **C94 (earlier years).**  If an interrupted run has touched a file of a later year, or the file of states, then the files of the earlier years
are complete and as they will be at the end: the run is written year by year, and the states come last. -/
theorem C94_earlier_years (K : Installation ι M R O) (c : RunCfg) (h : GoodPeriod c) (hspin : 0 ≤ c.spin) (hy : c.fin.y < 10000)
    (hc : outSections K.cfg) (restart : Bool) (d d' e : Disk (SavedPart ι R)) (ha : K.attempt c restart d d')
    (he : K.completes c restart d e) (w : OutRow) (hw : w.key ≠ "smax") (l : Date) (hl : l ∈ saveDays c) (n' : List Char)
    (hn' : (∃ w' : OutRow, w'.key ≠ "smax" ∧ ∃ l' ∈ saveDays c, l.ord < l'.ord ∧ n' = outName K.path w'.key l') ∨
      n' = stateName K.statesPath c.fin) (hch : d' n' ≠ d n') :
    d' (outName K.path w.key l) = e (outName K.path w.key l) := by
  obtain ⟨bs, m, hp, hs, rfl⟩ := he
  obtain ⟨outs, s, vs, tr, o, f⟩ := plan_facts K h hspin hy hc restart d bs hp
  rw [scheduled_full (f.nodup h hy) hs]
  rcases ha with ⟨-, rfl⟩ | ⟨bs', m', l', hp', hs', hpre, rfl⟩
  · exact absurd rfl hch
  rw [hp] at hp'; cases hp'
  have pl := saveDays_plain c h hy
  rcases hn' with ⟨w', hw', u, hu, hlt, rfl⟩ | rfl
  · have hu' := hu
    rw [← f.flushed, mem_flushed] at hu'
    obtain ⟨tr₁, tr₂, etr⟩ := List.append_of_mem hu'
    have hfl : saveDays c = flushed tr₁ ++ u :: flushed tr₂ := by
      rw [← f.flushed, etr]
      have : flushed (tr₁ ++ Event.flush u :: tr₂) = flushed tr₁ ++ flushed (Event.flush u :: tr₂) := List.filterMap_append
      rw [this]; rfl
    have hsort := saveDays_sorted h
    rw [hfl, List.pairwise_append] at hsort
    obtain ⟨-, r1, r2⟩ := hsort
    refine ordered f h hy tr₁ (Event.flush u :: tr₂) etr _ (outName K.path w'.key u) (.inl fun t q => stateName_ne_outName _ _ _ _ _ q.symm)
      (fun t ht k q => ?_) (fun t q => stateName_ne_outName _ _ _ _ _ q.symm) (fun t ht k q => ?_) _ _ hs' hpre hch
    · have e1 := (outName_inj _ _ _ _ _ (pl u hu) (pl t (by rw [hfl]; simp [ht])) q).2 hw'
      have := r2 t ht u (by simp)
      rw [e1] at this; omega
    · have ht' : t ∈ u :: flushed tr₂ := ht
      have e1 := (outName_inj _ _ _ _ _ (pl l hl) (pl t (by rw [hfl]; exact List.mem_append_right _ ht')) q).2 hw
      rcases List.mem_cons.1 ht' with rfl | ht'
      · rw [e1] at hlt; omega
      · have := (List.pairwise_cons.1 r1).1 t ht'
        rw [e1] at hlt; omega
  · by_cases hsv : c.saveStates = true
    · obtain ⟨tr₁, etr⟩ := f.last hsv
      have hsd : saved tr₁ = [] := by
        have := f.saved
        rw [if_pos hsv, etr] at this
        have e2 : saved (tr₁ ++ [Event.save c.fin]) = saved tr₁ ++ [c.fin] := List.filterMap_append
        rw [e2] at this
        simpa using this
      refine ordered f h hy tr₁ [Event.save c.fin] etr _ (stateName K.statesPath c.fin) (.inr hsd) (fun t _ k => stateName_ne_outName _ _ _ _ _)
        (fun t q => stateName_ne_outName _ _ _ _ _ q.symm) (fun t ht => ?_) _ _ hs' hpre hch
      exact absurd ht (by simp [flushed])
    · refine absurd ?_ hch
      refine scheduled_prefix_other hs' hpre _ (fun q => ?_) d
      rcases f.names _ q with ⟨w, -, -, l, -, e⟩ | ⟨e, -⟩
      · exact stateName_ne_outName _ _ _ _ _ e
      · exact hsv e

/-! ### A long simulation in pieces -/

/-- The piece of the simulation `c` that ends on `k`: the first one, or the one after the day `j`, which continues from the saved states. -/
def pieceOf (c : RunCfg) (a : Option Date) (k : Date) : RunCfg :=
  match a with
  | none => { c with fin := k, saveStates := true }
  | some j => { c with start := j.next, fin := k, spin := 0, saveStates := true }

/-- The simulation is run in pieces that end on the days `ks`; each piece may be interrupted any number of times before it is run to its end. -/
def Installation.inPieces (K : Installation ι M R O) (c : RunCfg) : Option Date → List Date → Disk (SavedPart ι R) → Disk (SavedPart ι R) → Prop
  | _, [], d, e => e = d
  | a, k :: ks, d, e => ∃ d₁ d₂, Relation.ReflTransGen (K.attempt (pieceOf c a k) a.isSome) d d₁ ∧
      K.completes (pieceOf c a k) a.isSome d₁ d₂ ∧ K.inPieces c (some k) ks d₂ e

/-- The values of the days up to `k` are on the disk: those of every selected output are in the file of the last day of the year or of the end of
a piece. -/
def Installation.holdsDays (K : Installation ι M R O) (c : RunCfg) (ks : List Date) (outs : List O) (k : Date) (e : Disk (SavedPart ι R)) : Prop :=
  ∀ w ∈ outputTable, w.selected K.cfg → w.key ≠ "smax" → ∀ t ∈ daysBetween c.start k,
    ∃ l v, (l = yearEnd t.y ∨ l ∈ ks) ∧ l.y = t.y ∧ t.ord ≤ l.ord ∧ l.ord ≤ k.ord ∧
      e (outName K.path w.key l) = some (some (.out (.axis v))) ∧ t ∈ v.axis ∧
      v.val t = (w.daily (K.view.results c.start outs) t).map (baseUnits w.group w.key K.area K.cf)

theorem days_length (E : Env ι M R O) (S : ℕ) (first : Date → Bool) (l : List Date) (x : SimState ι M R) :
    (E.days S first l x).2.length = l.length := by
  induction l generalizing x with
  | nil => rfl
  | cons t ts ih => simp only [Env.days, List.length_cons, ih]

theorem run_length (E : Env ι M R O) {c : RunCfg} (h : GoodPeriod c) (restart : Bool) (dir : RestartDir ι R) (outs : List O) (s : SavedPart ι R)
    (hr : E.run c restart dir = .ok (outs, s)) : outs.length = c.fin.ord + 1 - c.start.ord := by
  rw [run_eq E h] at hr
  split at hr
  · cases hr
  · simp only [Except.ok.injEq, Prod.mk.injEq] at hr
    rw [← hr.1, days_length, daysBetween, daysFrom_length]

theorem label_exists {c : RunCfg} (h : GoodPeriod c) (t : Date) (ht : t ∈ daysBetween c.start c.fin) :
    ∃ l ∈ saveDays c, (l = yearEnd t.y ∨ l = c.fin) ∧ l.y = t.y ∧ t.ord ≤ l.ord := by
  obtain ⟨tv, t1, t2⟩ := (mem_daysBetween h.vs _ _).1 ht
  have hyv : (yearEnd t.y).Valid := by simp [yearEnd, Date.Valid, daysInMonth]
  by_cases hle : (yearEnd t.y).ord ≤ c.fin.ord
  · refine ⟨yearEnd t.y, List.mem_filter.2 ⟨(mem_daysBetween h.vs _ _).2 ⟨hyv, t1.trans (ord_le_yearEnd tv), hle⟩, ?_⟩, .inl rfl, rfl, ord_le_yearEnd tv⟩
    simp [yearEnd]
  · refine ⟨c.fin, List.mem_filter.2 ⟨(mem_daysBetween h.vs _ _).2 ⟨h.vf, h.h2, le_refl _⟩, by simp⟩, .inr rfl, ?_, t2⟩
    have a1 := ord_in_year tv
    have a2 := ord_in_year h.vf
    have a3 := yearEnd_ord t.y
    rcases Nat.lt_trichotomy c.fin.y t.y with q | q | q
    · have := daysBeforeYear_mono q
      omega
    · exact q
    · have := daysBeforeYear_mono q
      omega

theorem daily_congr (v : DayView O) (s s' : Date) (outs outs' : List O) (w : OutRow) (t : Date)
    (h : outs[t.ord - s.ord]? = outs'[t.ord - s'.ord]?) : w.daily (v.results s outs) t = w.daily (v.results s' outs') t := by
  simp only [OutRow.daily, DayView.results, h]

/-- The files of a complete run. -/
theorem complete_files (K : Installation ι M R O) {p : RunCfg} (h : GoodPeriod p) (hspin : 0 ≤ p.spin) (hy : p.fin.y < 10000)
    (hc : outSections K.cfg) (restart : Bool) (d e : Disk (SavedPart ι R)) (he : K.completes p restart d e) :
    ∃ outs s, K.env.run p restart (K.stateDir d p.start) = .ok (outs, s) ∧
      (p.saveStates = true → e (stateName K.statesPath p.fin) = some (some (.state s))) ∧
      K.holdsDays p [p.fin] outs p.fin e ∧
      (∀ w ∈ outputTable, w.selected K.cfg → w.key = "smax" → ∀ t, e (outName K.path "smax" t) =
        some (some (.out (.const (if (⟨p.fin.y, 1, 1⟩ : Date) ∈ daysBetween p.start p.fin
          then w.daily (K.view.results p.start outs) ⟨p.fin.y, 1, 1⟩ else some 0))))) ∧
      ∀ n, ¬ K.writes p n → e n = d n := by
  obtain ⟨bs, l, hp, hs, rfl⟩ := he
  obtain ⟨outs, s, vs, tr, o, f⟩ := plan_facts K h hspin hy hc restart d bs hp
  refine ⟨outs, s, f.run, ?_, ?_, ?_, fun n hn => scheduled_prefix_other hs (List.prefix_refl _) n (fun q => hn (f.names n q)) d⟩
  all_goals rw [scheduled_full (f.nodup h hy) hs]
  · exact fun hsv => f.final_state hsv d
  · intro w hw hsel hne t ht
    obtain ⟨l, hl, h1, h2, h3⟩ := label_exists h t ht
    obtain ⟨v, q1, q2, q3⟩ := f.axis w hw hsel hne l hl
    refine ⟨l, v, by simpa using h1, h2, h3, ((mem_daysBetween h.vs _ _).1 (List.mem_filter.1 hl).1).2.2, ?_, q2 t ht h2.symm, ?_⟩
    · exact f.final_axis d _ _ (fun t q => stateName_ne_outName _ _ _ _ _ q.symm) q1
    · rw [q3, if_pos ⟨ht, h2.symm⟩]
  · intro w hw hsel he t
    exact f.final_axis d _ _ (fun t q => stateName_ne_outName _ _ _ _ _ q.symm) (f.smax w hw hsel he t)

/-- **C94 (a complete run).**  After a complete run the value of every day of the period is in the file of its year for every selected output, in
the unit of the output, the states of the end of the period are in their file if that is asked for, and no other file has changed; whatever was on
the disk before, complete or not. -/
theorem C94_complete (K : Installation ι M R O) (c : RunCfg) (h : GoodPeriod c) (hspin : 0 ≤ c.spin) (hy : c.fin.y < 10000)
    (hc : outSections K.cfg) (d e : Disk (SavedPart ι R)) (he : K.completes c false d e) :
    ∃ outs s, K.env.run c false [] = .ok (outs, s) ∧
      (c.saveStates = true → e (stateName K.statesPath c.fin) = some (some (.state s))) ∧
      K.holdsDays c [c.fin] outs c.fin e ∧ ∀ n, ¬ K.writes c n → e n = d n := by
  obtain ⟨outs, s, h1, h2, h3, -, h4⟩ := complete_files K h hspin hy hc false d e he
  rw [run_fresh K.env h] at h1
  rw [run_fresh K.env h]
  exact ⟨outs, s, h1, h2, h3, h4⟩

/-- The reservoirs commissioned since the start of the simulation are known to a run that continues after `k` (C35). -/
def reservoirsCovered (E : Env ι M R O) (c : RunCfg) (k : Date) : Prop :=
  E.on = true → ∀ i, c.start.y < (E.static i).startYear → (E.static i).startYear ≤ k.next.y →
    ∃ y, E.rs ≤ y ∧ y ≤ E.re ∧ (E.static i).startYear ≤ y ∧ y ≤ k.next.y

theorem year_le {a b : Date} (ha : a.Valid) (hb : b.Valid) (h : a.ord ≤ b.ord) : a.y ≤ b.y := by
  by_contra hlt
  have a1 := ord_in_year ha
  have a2 := ord_in_year hb
  have := daysBeforeYear_mono (show b.y < a.y by omega)
  omega

theorem yearEnd_mono {a b : ℕ} (h : a ≤ b) : (yearEnd a).ord ≤ (yearEnd b).ord := by
  rcases Nat.lt_or_eq_of_le h with h | rfl
  · have := daysBeforeYear_mono h
    rw [yearEnd_ord, yearEnd_ord]; omega
  · exact le_refl _

theorem good_fin {c : RunCfg} (h : GoodPeriod c) (hdata : (yearEnd c.fin.y).ord ≤ c.dataEnd.ord) (k : Date) (hk : k.Valid)
    (h1 : c.start.ord ≤ k.ord) (h2 : k.ord ≤ c.fin.ord) : GoodPeriod { c with fin := k } :=
  ⟨h.vs, hk, h.vd, h.ve, h.h1, h1, h2.trans h.h3, fun _ => (yearEnd_mono (year_le hk h.vf h2)).trans hdata⟩

theorem good_rest {c : RunCfg} (h : GoodPeriod c) (hdata : (yearEnd c.fin.y).ord ≤ c.dataEnd.ord) (k k' : Date) (hk : k.Valid) (hk' : k'.Valid)
    (h1 : c.start.ord ≤ k.ord) (h2 : k.ord < k'.ord) (h3 : k'.ord ≤ c.fin.ord) : GoodPeriod { c with start := k.next, fin := k', spin := 0 } := by
  have ho := next_ord hk
  have := h.h1
  exact ⟨next_valid hk, hk', h.vd, h.ve, by simp only; omega, by simp only; omega, h3.trans h.h3,
    fun _ => (yearEnd_mono (year_le hk' h.vf h3)).trans hdata⟩

theorem piece_step (K : Installation ι M R O) (c : RunCfg) (h : GoodPeriod c) (hspin : 0 ≤ c.spin) (hy : c.fin.y < 10000) (hy0 : 0 < c.start.y)
    (hc : outSections K.cfg) (hdata : (yearEnd c.fin.y).ord ≤ c.dataEnd.ord) (L : List Date) (k k' : Date) (hk : k.Valid) (hk' : k'.Valid)
    (h1 : c.start.ord ≤ k.ord) (h2 : k.ord < k'.ord) (h3 : k'.ord ≤ c.fin.ord) (hL : k' ∈ L) (hLv : ∀ l ∈ L, l.Valid) (hcov : reservoirsCovered K.env c k)
    (d d₁ d₂ : Disk (SavedPart ι R)) (outs : List O) (s : SavedPart ι R) (hrun : K.env.run { c with fin := k } false [] = .ok (outs, s))
    (hst : d (stateName K.statesPath k) = some (some (.state s))) (hday : K.holdsDays c L outs k d)
    (ha : Relation.ReflTransGen (K.attempt (pieceOf c (some k) k') true) d d₁) (hcomp : K.completes (pieceOf c (some k) k') true d₁ d₂) :
    ∃ outs' s', K.env.run { c with fin := k' } false [] = .ok (outs', s') ∧ d₂ (stateName K.statesPath k') = some (some (.state s')) ∧
      K.holdsDays c L outs' k' d₂ := by
  have gr := good_rest h hdata k k' hk hk' h1 h2 h3
  have gp : GoodPeriod (pieceOf c (some k) k') := ⟨gr.vs, gr.vf, gr.vd, gr.ve, gr.h1, gr.h2, gr.h3, gr.h4⟩
  have gk : GoodPeriod { c with fin := k } := good_fin h hdata k hk h1 (by omega)
  have hyk : k'.y < 10000 := lt_of_le_of_lt (year_le hk' h.vf h3) hy
  have hyk0 : k.y < 10000 := lt_of_le_of_lt (year_le hk h.vf (by omega)) hy
  have hstart : (0 : ℕ) < k.next.y := lt_of_lt_of_le hy0 ((year_le h.vs hk h1).trans (year_le hk (next_valid hk) (by rw [next_ord hk]; omega)))
  obtain ⟨o1, s1, o2, s2, r1, r2, r3⟩ := C35_split K.env { c with fin := k' } k hspin gk gr hcov
  have r1' : K.env.run { c with fin := k } false [] = .ok (o1, s1) := r1
  rw [hrun] at r1'
  simp only [Except.ok.injEq, Prod.mk.injEq] at r1'
  obtain ⟨rfl, rfl⟩ := r1'
  obtain ⟨outs2, s2', f1, f2, f3, -, f4⟩ := complete_files K gp (by simp [pieceOf]) hyk hc true d₁ d₂ hcomp
  have hd1 : ∀ n, ¬ K.writes (pieceOf c (some k) k') n → d₁ n = d n := attempts_kept K gp (by simp [pieceOf]) hyk hc true ha
  have hprev : (pieceOf c (some k) k').start.prev = k := next_prev hk
  have hnst : d₁ (stateName K.statesPath k) = some (some (.state s)) := by
    rw [← hst]
    refine hd1 _ ?_
    have := not_writes_start K gp hyk hstart
    rwa [hprev] at this
  have hdir : K.stateDir d₁ (pieceOf c (some k) k').start = [(k, s)] := by
    simp only [Installation.stateDir, hprev, hnst]
  rw [hdir] at f1
  have f1' : K.env.run { c with start := k.next, fin := k', spin := 0 } true [(k, s)] = .ok (outs2, s2') := f1
  have r2' : K.env.run { c with start := k.next, fin := k', spin := 0 } true [(k, s)] = .ok (o2, s2) := r2
  rw [f1'] at r2'
  simp only [Except.ok.injEq, Prod.mk.injEq] at r2'
  obtain ⟨rfl, rfl⟩ := r2'
  have len := run_length K.env gk false [] outs s hrun
  have len2 : outs.length = k.ord + 1 - c.start.ord := len
  refine ⟨_, _, r3, f2 rfl, ?_⟩
  intro w hw hsel hne t ht
  obtain ⟨tv, t1, t2⟩ := (mem_daysBetween h.vs _ _).1 ht
  have ho := next_ord hk
  by_cases htk : t.ord ≤ k.ord
  · obtain ⟨l, v, q1, q2, q3, q4, q5, q6, q7⟩ := hday w hw hsel hne t ((mem_daysBetween h.vs _ _).2 ⟨tv, t1, htk⟩)
    refine ⟨l, v, q1, q2, q3, by omega, ?_, q6, ?_⟩
    · have hn : ¬ K.writes (pieceOf c (some k) k') (outName K.path w.key l) := by
        rintro (⟨w', -, -, l', hl', e⟩ | ⟨-, e⟩)
        · have hp' := saveDays_plain _ gp hyk l' hl'
          have hly : l.y < 10000 := by rw [q2]; exact lt_of_le_of_lt (year_le tv hk htk) hyk0
          have hlp : l.plain := by
            rcases q1 with rfl | q1
            · exact ⟨hly, by simp [yearEnd], by simp [yearEnd]⟩
            · exact plain_of_valid (hLv l q1) hly
          have e1 := (outName_inj _ _ _ _ _ hlp hp' e).2 hne
          have := ((mem_daysBetween gp.vs _ _).1 (List.mem_filter.1 hl').1).2.1
          rw [← e1] at this
          have : k.next.ord ≤ l.ord := this
          omega
        · exact stateName_ne_outName _ _ _ _ _ e.symm
      rw [f4 _ hn, hd1 _ hn, q5]
    · rw [q7, daily_congr K.view c.start c.start outs (outs ++ outs2) w t]
      rw [List.getElem?_append_left (by omega)]
  · obtain ⟨l, v, q1, q2, q3, q4, q5, q6, q7⟩ := f3 w hw hsel hne t ((mem_daysBetween gp.vs _ _).2 ⟨tv, by show k.next.ord ≤ t.ord; omega, t2⟩)
    refine ⟨l, v, ?_, q2, q3, q4, q5, q6, ?_⟩
    · rcases q1 with q1 | q1
      · exact .inl q1
      · rw [List.mem_singleton.1 q1]; exact .inr hL
    · rw [q7, daily_congr K.view _ c.start outs2 (outs ++ outs2) w t]
      rw [List.getElem?_append_right (by omega)]
      congr 1
      show t.ord - k.next.ord = _
      omega

theorem pieces_rest (K : Installation ι M R O) (c : RunCfg) (h : GoodPeriod c) (hspin : 0 ≤ c.spin) (hy : c.fin.y < 10000) (hy0 : 0 < c.start.y)
    (hc : outSections K.cfg) (hdata : (yearEnd c.fin.y).ord ≤ c.dataEnd.ord) (L : List Date) (hLv : ∀ l ∈ L, l.Valid)
    (ks : List Date) (k : Date) (hk : k.Valid) (h1 : c.start.ord ≤ k.ord) (hsort : (k :: ks).Pairwise fun a b => a.ord < b.ord)
    (hle : ∀ l ∈ k :: ks, l.ord ≤ c.fin.ord) (hlast : (k :: ks).getLast? = some c.fin) (hsub : ∀ l ∈ ks, l ∈ L)
    (hcov : ∀ l ∈ k :: ks, l.ord < c.fin.ord → reservoirsCovered K.env c l)
    (d e : Disk (SavedPart ι R)) (he : K.inPieces c (some k) ks d e) (outs : List O) (s : SavedPart ι R)
    (hrun : K.env.run { c with fin := k } false [] = .ok (outs, s))
    (hst : d (stateName K.statesPath k) = some (some (.state s))) (hday : K.holdsDays c L outs k d) :
    ∃ outs' s', K.env.run c false [] = .ok (outs', s') ∧ e (stateName K.statesPath c.fin) = some (some (.state s')) ∧
      K.holdsDays c L outs' c.fin e := by
  induction ks generalizing k d outs s with
  | nil =>
    simp only [List.getLast?_singleton, Option.some.injEq] at hlast
    subst hlast
    rw [show e = d from he]
    exact ⟨outs, s, hrun, hst, hday⟩
  | cons k' ks ih =>
    obtain ⟨d₁, d₂, ha, hcomp, hrest⟩ := he
    obtain ⟨hs1, hs2⟩ := List.pairwise_cons.1 hsort
    have hlt := hs1 k' (by simp)
    have hk' := hLv k' (hsub k' (by simp))
    have hle' := hle k' (by simp)
    obtain ⟨outs', s', q1, q2, q3⟩ := piece_step K c h hspin hy hy0 hc hdata L k k' hk hk' h1 hlt hle' (hsub k' (by simp)) hLv
      (hcov k (by simp) (by omega)) d d₁ d₂ outs s hrun hst hday ha hcomp
    exact ih k' hk' (by omega) hs2 (fun l hl => hle l (List.mem_cons_of_mem _ hl)) (by simpa using hlast)
      (fun l hl => hsub l (List.mem_cons_of_mem _ hl)) (fun l hl => hcov l (List.mem_cons_of_mem _ hl)) d₂ hrest outs' s' q1 q2 q3

/-- **C94 (a simulation in pieces).**  A simulation is run in pieces, each of which continues from the states that the one before has saved and may
be interrupted any number of times, at any step, before it is run to its end.  Then the states of the last day are those of one run from the first
to the last day that is never interrupted, and for each selected output (`smax` aside) the value that this run has for a day is in the file of the
day's year or piece, in the unit of the output. -/
theorem C94_in_pieces (K : Installation ι M R O) (c : RunCfg) (h : GoodPeriod c) (hspin : 0 ≤ c.spin) (hy : c.fin.y < 10000) (hy0 : 0 < c.start.y)
    (hc : outSections K.cfg) (hdata : (yearEnd c.fin.y).ord ≤ c.dataEnd.ord) (ks : List Date) (hv : ∀ k ∈ ks, k.Valid)
    (hfirst : ∀ k ∈ ks, c.start.ord ≤ k.ord) (hsort : ks.Pairwise fun a b => a.ord < b.ord) (hlast : ks.getLast? = some c.fin)
    (hcov : ∀ k ∈ ks, k.ord < c.fin.ord → reservoirsCovered K.env c k)
    (d e : Disk (SavedPart ι R)) (he : K.inPieces c none ks d e) :
    ∃ outs s, K.env.run c false [] = .ok (outs, s) ∧ e (stateName K.statesPath c.fin) = some (some (.state s)) ∧
      K.holdsDays c ks outs c.fin e := by
  cases ks with
  | nil => simp at hlast
  | cons k ks =>
    obtain ⟨d₁, d₂, ha, hcomp, hrest⟩ := he
    have hk := hv k (by simp)
    have h1 := hfirst k (by simp)
    have hle : ∀ l ∈ k :: ks, l.ord ≤ c.fin.ord := by
      intro l hl
      obtain ⟨m, hm⟩ := List.getLast?_eq_some_iff.1 hlast
      rw [hm] at hl hsort
      rcases List.mem_append.1 hl with q | q
      · exact (List.pairwise_append.1 hsort).2.2 l q c.fin (by simp) |>.le
      · rw [List.mem_singleton.1 q]
    have gk := good_fin h hdata k hk h1 (hle k (by simp))
    have gp : GoodPeriod (pieceOf c none k) := ⟨gk.vs, gk.vf, gk.vd, gk.ve, gk.h1, gk.h2, gk.h3, gk.h4⟩
    have hyk : k.y < 10000 := lt_of_le_of_lt (year_le hk h.vf (hle k (by simp))) hy
    obtain ⟨outs, s, f1, f2, f3, -, f4⟩ := complete_files K gp hspin hyk hc false d₁ d₂ hcomp
    have f1' : K.env.run { c with fin := k } false [] = .ok (outs, s) := by
      rw [run_fresh K.env gp] at f1
      rw [run_fresh K.env gk]
      exact f1
    refine pieces_rest K c h hspin hy hy0 hc hdata (k :: ks) hv ks k hk h1 hsort hle hlast (fun l hl => List.mem_cons_of_mem _ hl) hcov d₂ e hrest
      outs s f1' (f2 rfl) ?_
    intro w hw hsel hne t ht
    obtain ⟨l, v, q1, q⟩ := f3 w hw hsel hne t ht
    refine ⟨l, v, ?_, q⟩
    rcases q1 with q1 | q1
    · exact .inl q1
    · rw [List.mem_singleton.1 q1]; exact .inr (by simp [pieceOf])

/-- **C94.**  Such a simulation can always be brought to its end. -/
theorem C94_pieces_possible (K : Installation ι M R O) (c : RunCfg) (h : GoodPeriod c) (hspin : 0 ≤ c.spin) (hy : c.fin.y < 10000) (hy0 : 0 < c.start.y)
    (hc : outSections K.cfg) (hdata : (yearEnd c.fin.y).ord ≤ c.dataEnd.ord) (ks : List Date) (hv : ∀ k ∈ ks, k.Valid)
    (hfirst : ∀ k ∈ ks, c.start.ord ≤ k.ord) (hsort : ks.Pairwise fun a b => a.ord < b.ord) (hle : ∀ k ∈ ks, k.ord ≤ c.fin.ord)
    (d : Disk (SavedPart ι R)) : ∃ e, K.inPieces c none ks d e := by
  have rest : ∀ (ks : List Date) (k : Date) (d : Disk (SavedPart ι R)) (_ : k.Valid) (_ : c.start.ord ≤ k.ord)
      (_ : (k :: ks).Pairwise fun a b => a.ord < b.ord) (_ : ∀ l ∈ ks, l.Valid) (_ : ∀ l ∈ ks, l.ord ≤ c.fin.ord)
      (_ : ∃ s, d (stateName K.statesPath k) = some (some (.state s))), ∃ e, K.inPieces c (some k) ks d e := by
    intro ks
    induction ks with
    | nil => exact fun k d _ _ _ _ _ _ => ⟨d, rfl⟩
    | cons k' ks ih =>
      intro k d hk h1 hs hvs hles hst
      obtain ⟨hs1, hs2⟩ := List.pairwise_cons.1 hs
      have hlt := hs1 k' (by simp)
      have hk' := hvs k' (by simp)
      have gr := good_rest h hdata k k' hk hk' h1 hlt (hles k' (by simp))
      have gp : GoodPeriod (pieceOf c (some k) k') := ⟨gr.vs, gr.vf, gr.vd, gr.ve, gr.h1, gr.h2, gr.h3, gr.h4⟩
      have hyk : k'.y < 10000 := lt_of_le_of_lt (year_le hk' h.vf (hles k' (by simp))) hy
      have hstart : (0 : ℕ) < k.next.y := lt_of_lt_of_le hy0 ((year_le h.vs hk h1).trans (year_le hk (next_valid hk) (by rw [next_ord hk]; omega)))
      obtain ⟨d₂, hd₂⟩ := C94_can_be_repeated K (pieceOf c (some k) k') gp (by simp [pieceOf]) hyk hstart hc true d d
        (fun _ => by rw [show (pieceOf c (some k) k').start.prev = k from next_prev hk]; exact hst) .refl
      obtain ⟨-, s2, -, f2, -⟩ := complete_files K gp (by simp [pieceOf]) hyk hc true d d₂ hd₂
      obtain ⟨e, he⟩ := ih k' d₂ hk' (by omega) hs2 (fun l hl => hvs l (List.mem_cons_of_mem _ hl)) (fun l hl => hles l (List.mem_cons_of_mem _ hl))
        ⟨s2, f2 rfl⟩
      exact ⟨e, d, d₂, .refl, hd₂, he⟩
  cases ks with
  | nil => exact ⟨d, rfl⟩
  | cons k ks =>
    have hk := hv k (by simp)
    have h1 := hfirst k (by simp)
    have gk := good_fin h hdata k hk h1 (hle k (by simp))
    have gp : GoodPeriod (pieceOf c none k) := ⟨gk.vs, gk.vf, gk.vd, gk.ve, gk.h1, gk.h2, gk.h3, gk.h4⟩
    have hyk : k.y < 10000 := lt_of_le_of_lt (year_le hk h.vf (hle k (by simp))) hy
    obtain ⟨d₂, hd₂⟩ := C94_can_be_repeated K (pieceOf c none k) gp hspin hyk hy0 hc false d d (by simp) .refl
    obtain ⟨-, s2, -, f2, -⟩ := complete_files K gp hspin hyk hc false d d₂ hd₂
    obtain ⟨e, he⟩ := rest ks k d₂ hk h1 hsort (fun l hl => hv l (List.mem_cons_of_mem _ hl)) (fun l hl => hle l (List.mem_cons_of_mem _ hl)) ⟨s2, f2 rfl⟩
    exact ⟨e, d, d₂, .refl, hd₂, he⟩

/-! ### Findings -/

theorem attempt_batches (K : Installation ι M R O) {c : RunCfg} {restart : Bool} {d : Disk (SavedPart ι R)} {bs₁ bs₂ : List (Batch (SavedPart ι R))}
    (hp : K.plan c restart d = some (bs₁ ++ bs₂)) (hb : ∀ b ∈ bs₁, (b.map Prod.fst).Nodup) : K.attempt c restart d (writeBatches bs₁ d) := by
  refine .inr ⟨_, _, bs₁.flatMap fun b => b.flatMap writerOps, hp, scheduled_exists _, ?_, (scheduled_full hb (scheduled_exists bs₁) d).symm⟩
  rw [List.flatMap_append]
  exact List.prefix_append _ _

/-- **C94, finding.**  The file of states is overwritten in place.  If a run is interrupted while it writes the states, those that an earlier run
had saved under the same date are lost, and no run can continue from that day. -/
theorem C94_violated_states_lost (K : Installation ι M R O) (c : RunCfg) (h : GoodPeriod c) (hspin : 0 ≤ c.spin) (hy : c.fin.y < 10000)
    (hc : outSections K.cfg) (hsv : c.saveStates = true) (restart : Bool) (d e : Disk (SavedPart ι R)) (he : K.completes c restart d e) :
    ∃ d', K.attempt c restart d d' ∧ d' (stateName K.statesPath c.fin) = some none ∧
      ∀ c' : RunCfg, GoodPeriod c' → c'.start = c.fin.next → K.plan c' true d' = none := by
  obtain ⟨bs, l, hp, hs, rfl⟩ := he
  obtain ⟨outs, s, vs, tr, o, f⟩ := plan_facts K h hspin hy hc restart d bs hp
  obtain ⟨tr₁, etr⟩ := f.last hsv
  have hok := f.ok
  rw [etr] at hok
  obtain ⟨vs₁, -, happ⟩ := batches_append (gridTime c) K.path K.statesPath K.area K.cf (K.view.results c.start outs) s tr₁ [Event.save c.fin] vs _ o hok
  have hbs := f.eq
  rw [etr, happ] at hbs
  generalize runBatches (gridTime c) K.path K.statesPath K.area K.cf (K.view.results c.start outs) s vs tr₁ = b1 at hbs
  have hlast : runBatches (gridTime c) K.path K.statesPath K.area K.cf (K.view.results c.start outs) s vs₁ [Event.save c.fin] =
      [[(stateName K.statesPath c.fin, .state s)]] := rfl
  rw [hlast] at hbs
  have hd' : ∃ d', K.attempt c restart d d' ∧ d' (stateName K.statesPath c.fin) = some none := by
    refine ⟨_, .inr ⟨bs, _, (b1.flatMap fun b => b.flatMap writerOps) ++ [.start (stateName K.statesPath c.fin)], hp, scheduled_exists bs, ?_, rfl⟩, ?_⟩
    · rw [hbs, List.flatMap_append]
      exact (List.prefix_append_right_inj _).2 ⟨[.finish (stateName K.statesPath c.fin) (.state s)], by simp [writerOps]⟩
    · rw [applyOps_append]
      simp [applyOps, FileOp.apply]
  obtain ⟨d', h1, h2⟩ := hd'
  refine ⟨d', h1, h2, fun c' hc' hst => ?_⟩
  have hdir : K.stateDir d' c'.start = [] := by
    simp only [Installation.stateDir, hst, next_prev h.vf, h2]
  unfold Installation.plan
  rw [hdir, C35_missing_file K.env c' hc' [] (by simp)]
  split <;> simp_all

/-- **C94, finding.**  If a run is repeated with other settings or data in the same folder and is interrupted after some year, the folder holds
complete files of both runs: up to that year those of the new run, afterwards those of the old one, all under the same names. -/
theorem C94_violated_mixed (K : Installation ι M R O) (c : RunCfg) (h : GoodPeriod c) (hspin : 0 ≤ c.spin) (hy : c.fin.y < 10000)
    (hc : outSections K.cfg) (restart : Bool) (d e : Disk (SavedPart ι R)) (he : K.completes c restart d e) (u : Date) (hu : u ∈ saveDays c) :
    ∃ d', K.attempt c restart d d' ∧ ∀ w : OutRow, w.key ≠ "smax" → ∀ l ∈ saveDays c,
      d' (outName K.path w.key l) = if l.ord ≤ u.ord then e (outName K.path w.key l) else d (outName K.path w.key l) := by
  obtain ⟨bs, l, hp, hs, rfl⟩ := he
  obtain ⟨outs, s, vs, tr, o, f⟩ := plan_facts K h hspin hy hc restart d bs hp
  have hnd := f.nodup h hy
  have pl := saveDays_plain c h hy
  have hu' := hu
  rw [← f.flushed, mem_flushed] at hu'
  obtain ⟨tr₁, tr₂, etr⟩ := List.append_of_mem hu'
  have hfl : saveDays c = flushed (tr₁ ++ [Event.flush u]) ++ flushed tr₂ := by
    rw [← f.flushed, etr]
    have : flushed ((tr₁ ++ [Event.flush u]) ++ tr₂) = flushed (tr₁ ++ [Event.flush u]) ++ flushed tr₂ := List.filterMap_append
    rw [← this]; simp
  have hfl1 : flushed (tr₁ ++ [Event.flush u]) = flushed tr₁ ++ [u] := List.filterMap_append
  have hsort := saveDays_sorted h
  rw [hfl, hfl1, List.pairwise_append, List.pairwise_append] at hsort
  obtain ⟨⟨-, -, r0⟩, -, r2⟩ := hsort
  have hok := f.ok
  have etr' : tr = (tr₁ ++ [Event.flush u]) ++ tr₂ := by rw [etr]; simp
  rw [etr'] at hok
  obtain ⟨vs₁, -, happ⟩ := batches_append (gridTime c) K.path K.statesPath K.area K.cf (K.view.results c.start outs) s _ tr₂ vs _ o hok
  have hbs := f.eq
  rw [etr', happ] at hbs
  rw [scheduled_full hnd hs]
  have nameOf : ∀ (us : List Created) (evs : List Event) (w : OutRow) (l : Date), w.key ≠ "smax" → l.plain → (∀ t ∈ flushed evs, t.plain ∧ t ≠ l) →
      outName K.path w.key l ∉
        batchNames (runBatches (gridTime c) K.path K.statesPath K.area K.cf (K.view.results c.start outs) s us evs) := by
    intro us evs w l hw hlp hev hn
    obtain ⟨b, hb, hn⟩ := List.mem_flatMap.1 hn
    obtain ⟨x, hx, e⟩ := List.mem_map.1 hn
    rcases batch_cases _ _ _ _ _ _ _ _ _ _ hb with ⟨t, ht, vs', -, rfl⟩ | ⟨t, ht, rfl⟩
    · obtain ⟨y, -, rfl⟩ := List.mem_map.1 hx
      have := hev t ((mem_flushed _ _).2 ht)
      exact this.2 ((outName_inj _ _ _ _ _ hlp this.1 e.symm).2 hw).symm
    · rw [List.mem_singleton.1 hx] at e
      exact stateName_ne_outName _ _ _ _ _ e
  have hpd : ∀ t ∈ flushed (tr₁ ++ [Event.flush u]), t ∈ saveDays c := fun t ht => by rw [hfl]; exact List.mem_append_left _ ht
  have hpd2 : ∀ t ∈ flushed tr₂, t ∈ saveDays c := fun t ht => by rw [hfl]; exact List.mem_append_right _ ht
  have n1 := nameOf vs (tr₁ ++ [Event.flush u])
  have n2 := nameOf vs₁ tr₂
  generalize runBatches (gridTime c) K.path K.statesPath K.area K.cf (K.view.results c.start outs) s vs (tr₁ ++ [Event.flush u]) = b1 at hbs n1
  generalize runBatches (gridTime c) K.path K.statesPath K.area K.cf (K.view.results c.start outs) s vs₁ tr₂ = b2 at hbs n2
  subst hbs
  refine ⟨_, attempt_batches K hp fun b hb => hnd b (by simp [hb]), fun w hw l hl => ?_⟩
  have e2 : writeBatches (b1 ++ b2) d = writeBatches b2 (writeBatches b1 d) := List.foldl_append ..
  split_ifs with hle
  · rw [e2, writeBatches_other b2]
    refine n2 w l hw (pl l hl) fun t ht => ⟨pl t (hpd2 t ht), ?_⟩
    rintro rfl
    have := r2 u (by simp) t ht
    omega
  · rw [writeBatches_other b1]
    refine n1 w l hw (pl l hl) fun t ht => ⟨pl t (hpd t ht), ?_⟩
    rintro rfl
    rw [hfl1] at ht
    rcases List.mem_append.1 ht with q | q
    · have := r0 t q u (by simp); omega
    · rw [List.mem_singleton.1 q] at hle; omega

/-- **C94, finding.**  Files that cannot be written are not noticed: the run goes on to its end, saves the states and all other files, and leaves
under the names of those files what was there before - nothing, or the results of an earlier run. -/
theorem C94_violated_write_error (K : Installation ι M R O) (c : RunCfg) (h : GoodPeriod c) (hspin : 0 ≤ c.spin) (hy : c.fin.y < 10000)
    (hc : outSections K.cfg) (restart : Bool) (F : List (List Char)) (hF : ∀ t, stateName K.statesPath t ∉ F)
    (d e : Disk (SavedPart ι R)) (he : K.completes c restart d e) :
    ∃ e', K.completesWithout F c restart d e' ∧ (c.saveStates = true → e' (stateName K.statesPath c.fin) = e (stateName K.statesPath c.fin)) ∧
      ∀ n, (∀ t, n ≠ outName K.path "smax" t) → e' n = if n ∈ F then d n else e n := by
  obtain ⟨bs, l, hp, hs, rfl⟩ := he
  obtain ⟨outs, s, vs, tr, o, f⟩ := plan_facts K h hspin hy hc restart d bs hp
  have hnd := f.nodup h hy
  have hnd' : ∀ b ∈ bs.map (fun b => b.filter fun w => !F.contains w.1), (b.map Prod.fst).Nodup := by
    intro b hb
    obtain ⟨b', hb', rfl⟩ := List.mem_map.1 hb
    exact (hnd b' hb').sublist (List.filter_sublist.map _)
  have key : ∀ n, (∀ t, n ≠ outName K.path "smax" t) →
      writeBatches (bs.map fun b => b.filter fun w => !F.contains w.1) d n = if n ∈ F then d n else writeBatches bs d n := by
    intro n hn
    split_ifs with hnF
    · refine writeBatches_other _ _ (fun q => ?_) d
      obtain ⟨b, hb, q⟩ := List.mem_flatMap.1 q
      obtain ⟨b', hb', rfl⟩ := List.mem_map.1 hb
      obtain ⟨w, hw, rfl⟩ := List.mem_map.1 q
      have := (List.mem_filter.1 hw).2
      simp [hnF] at this
    · by_cases hb : n ∈ batchNames bs
      · have hb' : n ∈ batchNames (bs.map fun b => b.filter fun w => !F.contains w.1) := by
          obtain ⟨b, hbb, q⟩ := List.mem_flatMap.1 hb
          obtain ⟨w, hw, rfl⟩ := List.mem_map.1 q
          exact List.mem_flatMap.2 ⟨_, List.mem_map_of_mem hbb, List.mem_map.2 ⟨w, List.mem_filter.2 ⟨hw, by simpa using hnF⟩, rfl⟩⟩
        obtain ⟨b1, m1, w1, x1, y1, z1⟩ := writeBatches_val bs n hb
        obtain ⟨b2, m2, w2, x2, y2, z2⟩ := writeBatches_val _ n hb'
        rw [z1, z2]
        obtain ⟨b2', m2', rfl⟩ := List.mem_map.1 m2
        have := f.unique h hy b1 m1 w1 x1 b2' m2' w2 (List.mem_filter.1 x2).1 (y1.trans y2.symm) (by rw [y1]; exact hn)
        rw [this]
      · have hb' : n ∉ batchNames (bs.map fun b => b.filter fun w => !F.contains w.1) := by
          intro q
          obtain ⟨b, hb2, q⟩ := List.mem_flatMap.1 q
          obtain ⟨b', hb', rfl⟩ := List.mem_map.1 hb2
          obtain ⟨w, hw, rfl⟩ := List.mem_map.1 q
          exact hb (List.mem_flatMap.2 ⟨b', hb', List.mem_map_of_mem (List.mem_filter.1 hw).1⟩)
        rw [writeBatches_other _ n hb, writeBatches_other _ n hb']
  refine ⟨_, ⟨bs, _, hp, scheduled_exists _, rfl⟩, ?_, ?_⟩ <;> rw [scheduled_full hnd' (scheduled_exists _), scheduled_full hnd hs]
  · intro _
    rw [key _ (fun t => stateName_ne_outName _ _ _ _ _), if_neg (hF _)]
  · exact key

end run

/-! ## Examples -/

/-- The example of C35 with the outputs of the example of C74. -/
noncomputable def exInst : Installation Bool Unit Unit (Bool → ℝ) where
  env := exEnv 1990 2010
  view := { arr := fun o _ => some (o false), landFrac := fun _ => 60, contFrac := 80 }
  cfg := exOutFile
  path := "out/"
  statesPath := "states/"
  area := 3000
  cf := 80

/-- The simulation from 28 February 2000 to 2 January 2001 in three pieces, that end on 30 June, on New Year's Eve and on the last day, with the
states of the second piece spoilt by an interruption. -/
example : ∃ e outs s, exInst.inPieces exRun none [⟨2000, 6, 30⟩, ⟨2000, 12, 31⟩, ⟨2001, 1, 2⟩] (fun _ => none) e ∧
    exInst.env.run exRun false [] = .ok (outs, s) ∧ e "states/restartwatergap_2001-01-02.pickle".toList = some (some (.state s)) ∧
    exInst.holdsDays exRun [⟨2000, 6, 30⟩, ⟨2000, 12, 31⟩, ⟨2001, 1, 2⟩] outs ⟨2001, 1, 2⟩ e := by
  have hv : ∀ k ∈ ([⟨2000, 6, 30⟩, ⟨2000, 12, 31⟩, ⟨2001, 1, 2⟩] : List Date), k.Valid := by decide +kernel
  have hf : ∀ k ∈ ([⟨2000, 6, 30⟩, ⟨2000, 12, 31⟩, ⟨2001, 1, 2⟩] : List Date), exRun.start.ord ≤ k.ord := by decide +kernel
  have hs : ([⟨2000, 6, 30⟩, ⟨2000, 12, 31⟩, ⟨2001, 1, 2⟩] : List Date).Pairwise fun a b => a.ord < b.ord := by decide +kernel
  have hcov : ∀ k ∈ ([⟨2000, 6, 30⟩, ⟨2000, 12, 31⟩, ⟨2001, 1, 2⟩] : List Date), k.ord < exRun.fin.ord → reservoirsCovered exInst.env exRun k := by
    intro k hk _ _ i h1 h2
    exact ⟨k.next.y, by simp only [List.mem_cons, List.not_mem_nil, or_false] at hk; rcases hk with rfl | rfl | rfl <;> decide,
      by simp only [List.mem_cons, List.not_mem_nil, or_false] at hk; rcases hk with rfl | rfl | rfl <;> decide, h2, le_refl _⟩
  obtain ⟨e, he⟩ := C94_pieces_possible exInst exRun exRun_good (by decide) (by decide) (by decide) exOut_sections (by decide +kernel) _ hv hf hs
    (by decide +kernel) (fun _ => none)
  obtain ⟨outs, s, h1, h2, h3⟩ := C94_in_pieces exInst exRun exRun_good (by decide) (by decide) (by decide) exOut_sections (by decide +kernel) _ hv hf hs
    rfl hcov _ e he
  exact ⟨e, outs, s, he, h1, h2, h3⟩

/-- A run with its interruptions: the states are lost by the interruption, and found again when the run is repeated. -/
example (d : Disk (SavedPart Bool Unit)) : ∃ d' e, exInst.attempt exRun false d d' ∧
    d' "states/restartwatergap_2001-01-02.pickle".toList = some none ∧ exInst.completes exRun false d' e ∧
    ∃ s, e "states/restartwatergap_2001-01-02.pickle".toList = some (some (.state s)) := by
  obtain ⟨e₀, he₀⟩ := C94_can_be_repeated exInst exRun exRun_good (by decide) (by decide) (by decide) exOut_sections false d d (by simp) .refl
  obtain ⟨d', h1, h2, -⟩ := C94_violated_states_lost exInst exRun exRun_good (by decide) (by decide) exOut_sections rfl false d e₀ he₀
  have he := (C94_repeated exInst exRun exRun_good (by decide) (by decide) (by decide) exOut_sections false d d' e₀ (.single h1)).2 he₀
  obtain ⟨-, s, -, h3, -⟩ := C94_complete exInst exRun exRun_good (by decide) (by decide) exOut_sections d' e₀ he
  exact ⟨d', e₀, h1, h2, he, s, h3 rfl⟩

example : (⟨2000, 12, 31⟩ : Date) ∈ saveDays exRun ∧ (⟨2001, 1, 2⟩ : Date) ∈ saveDays exRun := by
  constructor <;> exact List.mem_filter.2 ⟨(mem_daysBetween exRun_good.vs _ _).2 (by decide +kernel), by decide⟩

/-- The new file of 2000 beside the old one of 2001. -/
example (d e : Disk (SavedPart Bool Unit)) (he : exInst.completes exRun false d e) : ∃ d', exInst.attempt exRun false d d' ∧
    d' "out/qtot_2000-12-31.nc".toList = e "out/qtot_2000-12-31.nc".toList ∧
    d' "out/qtot_2001-01-02.nc".toList = d "out/qtot_2001-01-02.nc".toList := by
  have m1 : (⟨2000, 12, 31⟩ : Date) ∈ saveDays exRun := List.mem_filter.2 ⟨(mem_daysBetween exRun_good.vs _ _).2 (by decide +kernel), by decide⟩
  have m2 : (⟨2001, 1, 2⟩ : Date) ∈ saveDays exRun := List.mem_filter.2 ⟨(mem_daysBetween exRun_good.vs _ _).2 (by decide +kernel), by decide⟩
  obtain ⟨d', h1, h2⟩ := C94_violated_mixed exInst exRun exRun_good (by decide) (by decide) exOut_sections false d e he _ m1
  have row : ⟨2, "LateralWaterBalanceFluxes", "total_runoff", "qtot", "total_runoff", false⟩ ∈ outputTable := by decide +kernel
  exact ⟨d', h1, (h2 ⟨2, "LateralWaterBalanceFluxes", "total_runoff", "qtot", "total_runoff", false⟩ (by decide) _ m1).trans (if_pos (by decide +kernel)),
    (h2 ⟨2, "LateralWaterBalanceFluxes", "total_runoff", "qtot", "total_runoff", false⟩ (by decide) _ m2).trans (if_neg (by decide +kernel))⟩

example (d e : Disk (SavedPart Bool Unit)) (he : exInst.completes exRun false d e) : ∃ e', exInst.completesWithout ["out/qtot_2000-12-31.nc".toList] exRun false d e' ∧
    e' "out/qtot_2000-12-31.nc".toList = d "out/qtot_2000-12-31.nc".toList := by
  obtain ⟨e', h1, -, h2⟩ := C94_violated_write_error exInst exRun exRun_good (by decide) (by decide) exOut_sections false
    ["out/qtot_2000-12-31.nc".toList] (fun t q => by
      rw [List.mem_singleton] at q
      exact stateName_ne_outName "out/" _ "qtot" t ⟨2000, 12, 31⟩ (q.trans (by decide))) d e he
  refine ⟨e', h1, (h2 _ fun t q => ?_).trans (if_pos (by simp))⟩
  simp [outName, exInst] at q

end WG
