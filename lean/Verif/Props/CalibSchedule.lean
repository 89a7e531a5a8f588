import Verif.Model.CalibSchedule
import Verif.Props.Basin
import Verif.Props.Calibration

/-!
# Who is calibrated when (C62)
-/

namespace WG

variable {S σ : Type}

/-! ## Specification -/

/-- The stations of basin `b` that were started, in order of time. -/
def startedIn (log : List (CalEv S)) (b : ℕ) : List S :=
  log.filterMap fun e => match e with | .start b' s => if b' = b then some s else none | .done _ _ => none

/-- The stations of basin `b` that were finished, in order of time. -/
def finishedIn (log : List (CalEv S)) (b : ℕ) : List S :=
  log.filterMap fun e => match e with | .done b' s => if b' = b then some s else none | .start _ _ => none

/-- The files of a basin when its stations are calibrated one after the other without any parallel work. -/
def sequentially (calib : ℕ → S → σ → σ) (b : ℕ) (stations : List S) (f : σ) : σ :=
  stations.foldl (fun f s => calib b s f) f

/-! ## Lemmas -/

theorem startedIn_append (a c : List (CalEv S)) (b : ℕ) : startedIn (a ++ c) b = startedIn a b ++ startedIn c b := by
  simp [startedIn, List.filterMap_append]

theorem finishedIn_append (a c : List (CalEv S)) (b : ℕ) : finishedIn (a ++ c) b = finishedIn a b ++ finishedIn c b := by
  simp [finishedIn, List.filterMap_append]

/-- What holds in every reachable state of the pool. -/
structure PoolInv (ids : List ℕ) (todo : ℕ → List S) (calib : ℕ → S → σ → σ) (files0 : ℕ → σ) (k : ℕ) (p : Pool S σ) :
    Prop where
  nodup : (p.queue ++ p.running.map (·.basin)).Nodup
  sub : ∀ b ∈ p.queue ++ p.running.map (·.basin), b ∈ ids
  cap : p.running.length ≤ k
  waiting : ∀ b ∈ p.queue, startedIn p.log b = [] ∧ finishedIn p.log b = []
  working : ∀ w ∈ p.running, todo w.basin = finishedIn p.log w.basin ++ w.cur.toList ++ w.rest ∧
    startedIn p.log w.basin = finishedIn p.log w.basin ++ w.cur.toList
  over : ∀ b ∈ ids, b ∉ p.queue → b ∉ p.running.map (·.basin) →
    finishedIn p.log b = todo b ∧ startedIn p.log b = todo b
  others : ∀ b, b ∉ ids → startedIn p.log b = [] ∧ finishedIn p.log b = []
  files : ∀ b, p.files b = sequentially calib b (finishedIn p.log b) (files0 b)
  starts : ∀ pre b s post, p.log = pre ++ .start b s :: post → ∃ rest, todo b = finishedIn pre b ++ s :: rest

theorem poolStart_inv (ids : List ℕ) (hn : ids.Nodup) (todo : ℕ → List S) (calib : ℕ → S → σ → σ) (files0 : ℕ → σ)
    (k : ℕ) : PoolInv ids todo calib files0 k (poolStart ids files0) where
  nodup := by simpa [poolStart] using hn
  sub := by simp [poolStart]
  cap := by simp [poolStart]
  waiting := by simp [poolStart, startedIn, finishedIn]
  working := by simp [poolStart]
  over := by intro b hb h; exact absurd hb (by simpa [poolStart] using h)
  others := by simp [poolStart, startedIn, finishedIn]
  files := by simp [poolStart, finishedIn, sequentially]
  starts := by intro pre b s post h; simp [poolStart] at h

theorem append_singleton_split {α : Type} {l pre post : List α} {x e : α} (h : l ++ [x] = pre ++ e :: post) :
    (∃ post', l = pre ++ e :: post') ∨ (pre = l ∧ e = x ∧ post = []) := by
  rcases List.eq_nil_or_concat post with rfl | ⟨post', y, rfl⟩
  · right
    have := List.append_inj' h rfl
    simp only [List.cons.injEq, and_true] at this
    exact ⟨this.1.symm, this.2.symm, rfl⟩
  · left
    refine ⟨post', ?_⟩
    have h' : l ++ [x] = (pre ++ e :: post') ++ [y] := by rw [h]; simp
    exact (List.append_inj' h' rfl).1

theorem mem_set_cases {α : Type} {l : List α} {i : ℕ} {x y : α} (h : y ∈ l.set i x) : y ∈ l ∨ y = x := by
  rcases List.mem_or_eq_of_mem_set h with h | h
  · exact Or.inl h
  · exact Or.inr h

theorem map_set_basin (l : List (Worker S)) (i : ℕ) (w v : Worker S) (h : l[i]? = some w) (hb : v.basin = w.basin) :
    (l.set i v).map (·.basin) = l.map (·.basin) := by
  rw [List.map_set, hb]
  obtain ⟨hi, rfl⟩ := List.getElem?_eq_some_iff.1 h
  apply List.ext_getElem
  · simp
  · intro j h1 h2
    rw [List.getElem_set]
    split
    · rename_i hij; subst hij; simp
    · rfl

/-- In a list of workers with different basins, an entry of the changed list with another basin is an old entry; the
changed one has the basin. -/
theorem mem_set_worker {l : List (Worker S)} {i : ℕ} {w v x : Worker S} (hn : (l.map (·.basin)).Nodup)
    (h : l[i]? = some w) (hb : v.basin = w.basin) (hx : x ∈ l.set i v) : x = v ∨ (x ∈ l ∧ x.basin ≠ w.basin) := by
  obtain ⟨hi, rfl⟩ := List.getElem?_eq_some_iff.1 h
  obtain ⟨j, hj, rfl⟩ := List.getElem_of_mem hx
  rw [List.getElem_set]
  split
  · left; rfl
  · rename_i hij
    right
    have hj' : j < l.length := by simpa using hj
    refine ⟨List.getElem_mem _, fun he => hij ?_⟩
    have e1 : (l.map (·.basin))[j]'(by simpa using hj') = (l.map (·.basin))[i]'(by simpa using hi) := by
      simpa using he
    exact ((List.Nodup.getElem_inj_iff hn).1 e1).symm

theorem mem_eraseIdx_worker {l : List (Worker S)} {i : ℕ} {w : Worker S} (hn : (l.map (·.basin)).Nodup)
    (h : l[i]? = some w) (b : ℕ) : b ∈ (l.eraseIdx i).map (·.basin) ↔ b ∈ l.map (·.basin) ∧ b ≠ w.basin := by
  obtain ⟨hi, rfl⟩ := List.getElem?_eq_some_iff.1 h
  simp only [List.mem_map, List.mem_eraseIdx_iff_getElem]
  constructor
  · rintro ⟨x, ⟨j, hj, hne, rfl⟩, rfl⟩
    refine ⟨⟨_, List.getElem_mem hj, rfl⟩, fun he => hne ?_⟩
    have e1 : (l.map (·.basin))[j]'(by simpa using hj) = (l.map (·.basin))[i]'(by simpa using hi) := by
      simpa using he
    exact (List.Nodup.getElem_inj_iff hn).1 e1
  · rintro ⟨⟨x, hx, rfl⟩, hne⟩
    obtain ⟨j, hj, rfl⟩ := List.getElem_of_mem hx
    exact ⟨_, ⟨j, hj, fun e => hne (by subst e; rfl), rfl⟩, rfl⟩

theorem poolStep_inv {ids : List ℕ} {todo : ℕ → List S} {calib : ℕ → S → σ → σ} {files0 : ℕ → σ} {k : ℕ} {p : Pool S σ}
    (h : PoolInv ids todo calib files0 k p) (a : Act) : PoolInv ids todo calib files0 k (poolStep k todo calib p a) := by
  cases a with
  | take =>
    unfold poolStep
    cases hq : p.queue with
    | nil => simpa [hq] using h
    | cons b q =>
      simp only
      by_cases hc : p.running.length < k
      · rw [if_pos hc]
        have hbq : b ∈ p.queue := by rw [hq]; simp
        have hnd := h.nodup
        rw [hq] at hnd
        refine ⟨?_, ?_, ?_, ?_, ?_, ?_, h.others, h.files, h.starts⟩
        · have hp : (q ++ (p.running ++ [(⟨b, none, todo b⟩ : Worker S)]).map (·.basin)).Perm
              ((b :: q) ++ p.running.map (·.basin)) := by
            simp only [List.map_append, List.map_cons, List.map_nil, List.cons_append]
            rw [← List.append_assoc]
            exact List.perm_append_singleton b _
          exact (hp.nodup_iff).2 hnd
        · intro x hx
          apply h.sub
          rw [hq]
          simp only [List.map_append, List.map_cons, List.map_nil, List.mem_append, List.mem_cons] at hx ⊢
          tauto
        · simp; omega
        · intro x hx; exact h.waiting x (by rw [hq]; simp [hx])
        · intro w hw
          rcases List.mem_append.1 hw with hw | hw
          · exact h.working w hw
          · rw [List.mem_singleton] at hw
            subst hw
            obtain ⟨h1, h2⟩ := h.waiting b hbq
            simp [h1, h2]
        · intro x hx h1 h2
          simp only [List.map_append, List.map_cons, List.map_nil, List.mem_append, List.mem_singleton, not_or] at h2
          exact h.over x hx (by rw [hq]; simp only [List.mem_cons, not_or]; exact ⟨h2.2, h1⟩) h2.1
      · rw [if_neg hc]; exact h
  | work i =>
    have hnr : (p.running.map (·.basin)).Nodup := (List.nodup_append.1 h.nodup).2.1
    have hdisj : ∀ b ∈ p.queue, b ∉ p.running.map (·.basin) := by
      intro b hb hb'
      exact (List.nodup_append.1 h.nodup).2.2 b hb b hb' rfl
    unfold poolStep
    cases hw : p.running[i]? with
    | none => simpa [hw] using h
    | some w =>
      obtain ⟨hi, hwi⟩ := List.getElem?_eq_some_iff.1 hw
      have hmem : w ∈ p.running := by rw [← hwi]; exact List.getElem_mem hi
      have hmb : w.basin ∈ p.running.map (·.basin) := List.mem_map.2 ⟨w, hmem, rfl⟩
      have hids : w.basin ∈ ids := h.sub _ (List.mem_append.2 (Or.inr hmb))
      obtain ⟨g1, g2⟩ := h.working w hmem
      obtain ⟨b, cur, rest⟩ := w
      simp only at g1 g2 hmb hids
      cases cur with
      | some s =>
        simp only [hw]
        have hset := map_set_basin p.running i ⟨b, some s, rest⟩ ⟨b, none, rest⟩ hw rfl
        have hs : ∀ x, startedIn (p.log ++ [CalEv.done b s]) x = startedIn p.log x := by
          intro x; rw [startedIn_append]; simp [startedIn]
        have hf : finishedIn (p.log ++ [CalEv.done b s]) b = finishedIn p.log b ++ [s] := by
          rw [finishedIn_append]; simp [finishedIn]
        have hf' : ∀ x, x ≠ b → finishedIn (p.log ++ [CalEv.done b s]) x = finishedIn p.log x := by
          intro x hx; rw [finishedIn_append]; simp [finishedIn, Ne.symm hx]
        refine ⟨by rw [hset]; exact h.nodup, by rw [hset]; exact h.sub, by simpa using h.cap, ?_, ?_, ?_, ?_, ?_, ?_⟩
        · intro x hx
          have hne : x ≠ b := fun e => hdisj x hx (e ▸ hmb)
          rw [hs, hf' x hne]; exact h.waiting x hx
        · intro x hx
          rcases mem_set_worker hnr hw (v := ⟨b, none, rest⟩) rfl hx with rfl | ⟨hx, hne⟩
          · simp only
            rw [hs, hf, g1, g2]; simp
          · have hne' : x.basin ≠ b := hne
            rw [hs, hf' _ hne']; exact h.working x hx
        · intro x hx h1 h2
          rw [hset] at h2
          have hne : x ≠ b := fun e => h2 (e ▸ hmb)
          rw [hs, hf' x hne]; exact h.over x hx h1 h2
        · intro x hx
          have hne : x ≠ b := fun e => hx (e ▸ hids)
          rw [hs, hf' x hne]; exact h.others x hx
        · intro x
          by_cases hx : x = b
          · subst hx
            rw [hf]
            simp only [Function.update_self, sequentially, List.foldl_append, List.foldl_cons, List.foldl_nil]
            rw [h.files]; rfl
          · simp only [Function.update_of_ne hx]
            rw [hf' x hx]; exact h.files x
        · intro pre b' s' post he
          rcases append_singleton_split he with ⟨post', he⟩ | ⟨-, he, -⟩
          · exact h.starts pre b' s' post' he
          · cases he
      | none =>
        cases rest with
        | cons s rest =>
          simp only [hw]
          have hset := map_set_basin p.running i ⟨b, none, s :: rest⟩ ⟨b, some s, rest⟩ hw rfl
          have hf : ∀ x, finishedIn (p.log ++ [CalEv.start b s]) x = finishedIn p.log x := by
            intro x; rw [finishedIn_append]; simp [finishedIn]
          have hs : startedIn (p.log ++ [CalEv.start b s]) b = startedIn p.log b ++ [s] := by
            rw [startedIn_append]; simp [startedIn]
          have hs' : ∀ x, x ≠ b → startedIn (p.log ++ [CalEv.start b s]) x = startedIn p.log x := by
            intro x hx; rw [startedIn_append]; simp [startedIn, Ne.symm hx]
          refine ⟨by rw [hset]; exact h.nodup, by rw [hset]; exact h.sub, by simpa using h.cap, ?_, ?_, ?_, ?_, ?_, ?_⟩
          · intro x hx
            have hne : x ≠ b := fun e => hdisj x hx (e ▸ hmb)
            rw [hf, hs' x hne]; exact h.waiting x hx
          · intro x hx
            rcases mem_set_worker hnr hw (v := ⟨b, some s, rest⟩) rfl hx with rfl | ⟨hx, hne⟩
            · simp only
              rw [hf, hs, g1, g2]; simp
            · have hne' : x.basin ≠ b := hne
              rw [hf, hs' _ hne']; exact h.working x hx
          · intro x hx h1 h2
            rw [hset] at h2
            have hne : x ≠ b := fun e => h2 (e ▸ hmb)
            rw [hf, hs' x hne]; exact h.over x hx h1 h2
          · intro x hx
            have hne : x ≠ b := fun e => hx (e ▸ hids)
            rw [hf, hs' x hne]; exact h.others x hx
          · intro x; rw [hf]; exact h.files x
          · intro pre b' s' post he
            rcases append_singleton_split he with ⟨post', he⟩ | ⟨rfl, he, -⟩
            · exact h.starts pre b' s' post' he
            · injection he with e1 e2
              subst e1 e2
              exact ⟨rest, by rw [g1]; simp⟩
        | nil =>
          simp only [hw]
          have hme := fun x => mem_eraseIdx_worker hnr hw x
          refine ⟨?_, ?_, ?_, h.waiting, ?_, ?_, h.others, h.files, h.starts⟩
          · refine h.nodup.sublist ?_
            exact List.Sublist.append_left ((List.eraseIdx_sublist _ _).map _) _
          · intro x hx
            apply h.sub
            rcases List.mem_append.1 hx with hx | hx
            · exact List.mem_append.2 (Or.inl hx)
            · exact List.mem_append.2 (Or.inr ((hme x).1 hx).1)
          · exact ((List.eraseIdx_sublist p.running i).length_le).trans h.cap
          · intro w hw'
            exact h.working w (List.mem_of_mem_eraseIdx hw')
          · intro x hx h1 h2
            by_cases hx' : x = b
            · subst hx'
              rw [g1, g2]; simp
            · exact h.over x hx h1 fun hc => h2 ((hme x).2 ⟨hc, hx'⟩)

theorem poolRun_inv {ids : List ℕ} (hn : ids.Nodup) (todo : ℕ → List S) (calib : ℕ → S → σ → σ) (files0 : ℕ → σ) (k : ℕ)
    (acts : List Act) : PoolInv ids todo calib files0 k (poolRun k todo calib (poolStart ids files0) acts) := by
  have key : ∀ (acts : List Act) (p : Pool S σ), PoolInv ids todo calib files0 k p →
      PoolInv ids todo calib files0 k (poolRun k todo calib p acts) := by
    intro acts
    induction acts with
    | nil => intro p h; exact h
    | cons a as ih => intro p h; exact ih _ (poolStep_inv h a)
  exact key acts _ (poolStart_inv ids hn todo calib files0 k)

/-! ## Theorems -/

/-- **C62.**  Whatever the number of threads and however the threads are interleaved: a station is started only after all
stations before it in the list of its basin have been finished, in the order of the list, and no other station of
the basin. -/
theorem C62_order {ids : List ℕ} (hn : ids.Nodup) (todo : ℕ → List S) (calib : ℕ → S → σ → σ) (files : ℕ → σ) (k : ℕ)
    (acts : List Act) (pre post : List (CalEv S)) (b : ℕ) (s : S)
    (h : (poolRun k todo calib (poolStart ids files) acts).log = pre ++ .start b s :: post) :
    ∃ rest, todo b = finishedIn pre b ++ s :: rest :=
  (poolRun_inv hn todo calib files k acts).starts pre b s post h

/-- **C62.**  When the pool is done, every station in the list of every basin has been calibrated exactly once, in order,
and the files of every basin are what calibrating its stations one after the other gives: the result does not depend on
the number of threads nor on the interleaving. -/
theorem C62_result {ids : List ℕ} (hn : ids.Nodup) (todo : ℕ → List S) (calib : ℕ → S → σ → σ) (files : ℕ → σ) (k : ℕ)
    (acts : List Act) (f : ℕ → σ) (h : mergedFiles .localPool k ids todo calib files acts = some f) :
    (∀ b, f b = if b ∈ ids then sequentially calib b (todo b) (files b) else files b) ∧
    ∀ b ∈ ids, startedIn (poolRun k todo calib (poolStart ids files) acts).log b = todo b ∧
      finishedIn (poolRun k todo calib (poolStart ids files) acts).log b = todo b := by
  have hi := poolRun_inv hn todo calib files k acts
  unfold mergedFiles at h
  simp only at h
  generalize hp : poolRun k todo calib (poolStart ids files) acts = p at *
  have hidle : p.idle = true := by
    by_contra hc
    simp [hc] at h
  rw [if_pos hidle] at h
  injection h with h
  subst h
  unfold Pool.idle at hidle
  rw [Bool.and_eq_true, List.isEmpty_iff, List.isEmpty_iff] at hidle
  have hover : ∀ b ∈ ids, finishedIn p.log b = todo b ∧ startedIn p.log b = todo b := by
    intro b hb
    exact hi.over b hb (by rw [hidle.1]; simp) (by rw [hidle.2]; simp)
  refine ⟨fun b => ?_, fun b hb => ⟨(hover b hb).2, (hover b hb).1⟩⟩
  rw [hi.files b]
  split
  · rename_i hb; rw [(hover b hb).1]
  · rename_i hb; rw [(hi.others b hb).2]; rfl

/-- **C62.**  At most `k` basins are calibrated at the same time. -/
theorem C62_capacity {ids : List ℕ} (hn : ids.Nodup) (todo : ℕ → List S) (calib : ℕ → S → σ → σ) (files : ℕ → σ) (k : ℕ)
    (acts : List Act) : (poolRun k todo calib (poolStart ids files) acts).running.length ≤ k :=
  (poolRun_inv hn todo calib files k acts).cap

/-- Work left: two steps per station, one to take a basin and one to leave it. -/
def Pool.left (todo : ℕ → List S) (p : Pool S σ) : ℕ :=
  (p.queue.map fun b => 2 * (todo b).length + 2).sum +
  (p.running.map fun w => 2 * w.rest.length + w.cur.toList.length + 1).sum

theorem sum_set_lt (l : List ℕ) (i x y : ℕ) (h : l[i]? = some x) (hy : y < x) : (l.set i y).sum < l.sum := by
  induction l generalizing i with
  | nil => simp at h
  | cons a l ih =>
    cases i with
    | zero => simp at h; subst h; simp; exact hy
    | succ i =>
      have := ih i (by simpa using h)
      simp only [List.set_cons_succ, List.sum_cons]; omega

theorem sum_eraseIdx_lt (l : List ℕ) (i x : ℕ) (h : l[i]? = some x) (hx : 0 < x) : (l.eraseIdx i).sum < l.sum := by
  induction l generalizing i with
  | nil => simp at h
  | cons a l ih =>
    cases i with
    | zero => simp at h; subst h; simp; exact hx
    | succ i =>
      have := ih i (by simpa using h)
      simp only [List.eraseIdx_cons_succ, List.sum_cons]; omega

/-- **C62.**  With at least one thread the pool can always make a step until it is done, and every step that is made brings
it nearer to its end: no schedule is blocked, and none goes on for ever. -/
theorem C62_progress (todo : ℕ → List S) (calib : ℕ → S → σ → σ) (k : ℕ) (hk : 0 < k) (p : Pool S σ) :
    (p.idle = false → ∃ a, (poolStep k todo calib p a).left todo < p.left todo) ∧
    ∀ a, poolStep k todo calib p a = p ∨ (poolStep k todo calib p a).left todo < p.left todo := by
  have hwork : ∀ i w, p.running[i]? = some w → (poolStep k todo calib p (.work i)).left todo < p.left todo := by
    intro i w hw
    obtain ⟨b, cur, rest⟩ := w
    unfold poolStep
    simp only [hw]
    have hm : (p.running.map fun w => 2 * w.rest.length + w.cur.toList.length + 1)[i]? =
        some (2 * rest.length + cur.toList.length + 1) := by
      rw [List.getElem?_map, hw]; rfl
    cases cur with
    | some s =>
      simp only [Pool.left, List.map_set]
      have := sum_set_lt _ i _ (2 * rest.length + (none : Option S).toList.length + 1) hm (by simp)
      omega
    | none =>
      cases rest with
      | cons s rest =>
        simp only [Pool.left, List.map_set]
        have := sum_set_lt _ i _ (2 * rest.length + (some s : Option S).toList.length + 1) hm (by simp; omega)
        omega
      | nil =>
        simp only [Pool.left]
        have := sum_eraseIdx_lt _ i _ hm (by omega)
        rw [← List.eraseIdx_map]
        omega
  have htake : ∀ b q, p.queue = b :: q → p.running.length < k →
      (poolStep k todo calib p .take).left todo < p.left todo := by
    intro b q hq hc
    unfold poolStep
    simp only [hq, if_pos hc, Pool.left, List.map_append, List.sum_append, List.map_cons, List.sum_cons, List.map_nil,
      List.sum_nil, Option.toList_none, List.length_nil]
    omega
  constructor
  · intro hi
    cases hr : p.running with
    | cons w ws => exact ⟨.work 0, hwork 0 w (by rw [hr]; rfl)⟩
    | nil =>
      cases hq : p.queue with
      | nil => simp [Pool.idle, hr, hq] at hi
      | cons b q => exact ⟨.take, htake b q hq (by rw [hr]; simpa using hk)⟩
  · intro a
    cases a with
    | take =>
      cases hq : p.queue with
      | nil => left; simp [poolStep, hq]
      | cons b q =>
        by_cases hc : p.running.length < k
        · exact Or.inr (htake b q hq hc)
        · left; simp [poolStep, hq, hc]
    | work i =>
      cases hw : p.running[i]? with
      | none => left; simp [poolStep, hw]
      | some w => exact Or.inr (hwork i w hw)

/-! ### The order of the list -/

/-- **C62.**  The list of a basin has its stations in routing order: if the routing order has every cell after the cells
draining into it, a station is listed after all stations of its basin that lie upstream of it. -/
theorem C62_upstream_first (tab : InflowTable) (order : List ℤ)
    (hord : ∀ a c, DrainsInto tab a c → order.idxOf a < order.idxOf c) (station : ℤ → Option (S × ℕ)) (b : ℕ)
    (a c : ℤ) (sa sc : S) (ha : a ∈ order) (hc : c ∈ order) (hsa : station a = some (sa, b)) (hsc : station c = some (sc, b))
    (hr : Reaches tab a c) (hne : a ≠ c) :
    ∃ l1 l2 l3, basinGroup order station b = l1 ++ sa :: l2 ++ sc :: l3 := by
  have hlt : order.idxOf a < order.idxOf c := by
    have hle : ∀ {x y}, Reaches tab x y → x = y ∨ order.idxOf x < order.idxOf y := by
      intro x y h
      induction h with
      | refl => exact Or.inl rfl
      | tail _ h2 ih =>
        right
        have := hord _ _ h2
        rcases ih with rfl | ih
        · exact this
        · omega
    exact (hle hr).resolve_left hne
  have hia := List.idxOf_lt_length_iff.2 ha
  have hic := List.idxOf_lt_length_iff.2 hc
  have e1 : order = order.take (order.idxOf c) ++ c :: order.drop (order.idxOf c + 1) := by
    conv_lhs => rw [← List.take_append_drop (order.idxOf c) order]
    congr 1
    rw [List.drop_eq_getElem_cons hic, List.getElem_idxOf hic]
  have hmem : a ∈ order.take (order.idxOf c) := by
    rw [List.mem_take_iff_getElem]
    exact ⟨order.idxOf a, by omega, List.getElem_idxOf hia⟩
  obtain ⟨u, v, huv⟩ := List.append_of_mem hmem
  rw [huv] at e1
  have e2 : basinGroup order station b = basinGroup u station b ++ sa :: basinGroup v station b ++
      sc :: basinGroup (order.drop (order.idxOf c + 1)) station b := by
    conv_lhs => rw [e1]
    simp [basinGroup, orderedStations, List.filterMap_append, hsa, hsc]
  exact ⟨_, _, _, e2⟩

/-- **C62.**  Hence, in every parallel run, when a station is started all stations of its basin that lie upstream of it
have been calibrated. -/
theorem C62_upstream_calibrated {ids : List ℕ} (hn : ids.Nodup) (tab : InflowTable) (order : List ℤ)
    (hord : ∀ a c, DrainsInto tab a c → order.idxOf a < order.idxOf c) (station : ℤ → Option (S × ℕ))
    (old : ℕ → Option (List S)) (calib : ℕ → S → σ → σ) (files : ℕ → σ) (k : ℕ) (acts : List Act)
    (pre post : List (CalEv S)) (b : ℕ) (a c : ℤ) (sa sc : S) (ha : a ∈ order) (hc : c ∈ order)
    (hsa : station a = some (sa, b)) (hsc : station c = some (sc, b)) (hr : Reaches tab a c) (hne : a ≠ c)
    (hdist : (basinGroup order station b).Nodup)
    (h : (poolRun k (stationsToDo (stationsCsv old order station)) calib (poolStart ids files) acts).log =
      pre ++ .start b sc :: post) :
    sa ∈ finishedIn pre b := by
  obtain ⟨rest, hrest⟩ := C62_order hn _ calib files k acts pre post b sc h
  obtain ⟨l1, l2, l3, hl⟩ := C62_upstream_first tab order hord station b a c sa sc ha hc hsa hsc hr hne
  have htodo : stationsToDo (stationsCsv old order station) b = basinGroup order station b := by
    unfold stationsToDo stationsCsv
    rw [hl]; simp
  rw [htodo] at hrest
  have hnd := hdist
  rw [hl] at hnd
  have heq : (l1 ++ sa :: l2) ++ sc :: l3 = finishedIn pre b ++ sc :: rest := by rw [← hl, ← hrest]
  have h1 : sc ∉ l1 ++ sa :: l2 := by
    intro hm
    exact (List.nodup_append.1 hnd).2.2 sc hm sc (by simp) rfl
  have h2 : sc ∉ finishedIn pre b := by
    intro hm
    rw [hrest] at hdist
    exact (List.nodup_append.1 hdist).2.2 sc hm sc (by simp) rfl
  have hpre : ∀ (l l' r r' : List S), sc ∉ l → sc ∉ l' → l ++ sc :: r = l' ++ sc :: r' → l = l' := by
    intro l
    induction l with
    | nil =>
      intro l' r r' _ h' he
      cases l' with
      | nil => rfl
      | cons x xs =>
        simp only [List.nil_append, List.cons_append, List.cons.injEq] at he
        exact absurd (by rw [he.1]; simp) h'
    | cons x xs ih =>
      intro l' r r' h h' he
      cases l' with
      | nil =>
        simp only [List.nil_append, List.cons_append, List.cons.injEq] at he
        exact absurd (by rw [he.1]; simp) h
      | cons y ys =>
        simp only [List.cons_append, List.cons.injEq] at he
        rw [he.1, ih ys r r' (fun hm => h (by simp [hm])) (fun hm => h' (by simp [hm])) he.2]
  rw [← hpre _ _ _ _ h1 h2 heq]
  simp

/-- **C62.**  With every cell draining into at most one other, the calibration unit of a station — its upstream cells
without those upstream of a station calibrated before — consists of exactly the cells whose first station downstream is
that station: all other stations the water of the cell reaches lie further downstream. -/
theorem C62_units {ι : Type} (tab : InflowTable) (order : List ℤ) (hn : order.Nodup)
    (hord : ∀ a c, DrainsInto tab a c → order.idxOf a < order.idxOf c)
    (hone : ∀ a c d, DrainsInto tab a c → DrainsInto tab a d → c = d)
    (isStation : ℤ → Bool) (grid : ι → Option ℤ) (basins : List (ι → Option ℤ))
    (hlen : basins.length = (order.filter isStation).length)
    (hb : ∀ i (h : i < basins.length) (h' : i < (order.filter isStation).length) p v,
      basins[i] p = some v ↔ grid p = some v ∧ Reaches tab v ((order.filter isStation)[i]))
    (i : ℕ) (h : i < (reduceAll [] basins).length) (h' : i < (order.filter isStation).length) (p : ι) (v : ℤ) :
    (reduceAll [] basins)[i] p = some v ↔
      grid p = some v ∧ Reaches tab v (order.filter isStation)[i] ∧
      ∀ s ∈ order.filter isStation, Reaches tab v s → Reaches tab (order.filter isStation)[i] s := by
  have hle : ∀ {x y}, Reaches tab x y → x = y ∨ order.idxOf x < order.idxOf y := by
    intro x y h
    induction h with
    | refl => exact Or.inl rfl
    | tail _ h2 ih =>
      right
      have := hord _ _ h2
      rcases ih with rfl | ih
      · exact this
      · omega
  have hlin : ∀ {x y z}, Reaches tab x y → Reaches tab x z → Reaches tab y z ∨ Reaches tab z y := by
    intro x y z hxy hxz
    induction hxy with
    | refl => exact Or.inl hxz
    | tail h1 h2 ih =>
      rename_i m y
      rcases ih with ih | ih
      · rcases Relation.ReflTransGen.cases_head ih with rfl | ⟨w, hw, hwz⟩
        · exact Or.inr (Relation.ReflTransGen.single h2)
        · rw [hone _ _ _ h2 hw]; exact Or.inl hwz
      · exact Or.inr (ih.tail h2)
  -- positions in the list of stations are ordered as in the routing order
  have hsorted : (order.filter isStation).Pairwise fun a c => order.idxOf a < order.idxOf c := by
    have : order.Pairwise fun a c => order.idxOf a < order.idxOf c := by
      rw [List.pairwise_iff_getElem]
      intro m n hm hn' hmn
      rwa [List.Nodup.idxOf_getElem hn, List.Nodup.idxOf_getElem hn]
    exact this.sublist List.filter_sublist
  obtain ⟨hl, hU⟩ := C45_units basins
  have hib : i < basins.length := by omega
  rw [hU i hib h p v, hb i hib h' p v]
  constructor
  · rintro ⟨⟨h1, h2⟩, h3⟩
    refine ⟨h1, h2, fun s hs hvs => ?_⟩
    rcases hlin h2 hvs with hx | hx
    · exact hx
    · rcases hle hx with he | hlt
      · rw [he]; exact Relation.ReflTransGen.refl
      · exfalso
        obtain ⟨j, hj, rfl⟩ := List.getElem_of_mem hs
        have hji : j < i := by
          by_contra hc
          rcases Nat.lt_or_eq_of_le (not_lt.1 hc) with hlt' | heq
          · have := (List.pairwise_iff_getElem.1 hsorted) i j h' hj hlt'
            omega
          · subst heq; omega
        exact h3 j hji ⟨p, (hb j (by omega) hj p v).2 ⟨h1, hvs⟩⟩
  · rintro ⟨h1, h2, h3⟩
    refine ⟨⟨h1, h2⟩, fun j hj => ?_⟩
    rintro ⟨q, hq⟩
    have hj' : j < (order.filter isStation).length := by omega
    have hvj := ((hb j (by omega) hj' q v).1 hq).2
    have := h3 _ (List.getElem_mem hj') hvj
    have hlt := (List.pairwise_iff_getElem.1 hsorted) j i hj' h' hj
    rcases hle this with he | hlt'
    · rw [he] at hlt; omega
    · omega

/-! ### What the merge reads, and which basins are calibrated -/

/-- **C62 violated.**  In mode `cluster` the program does not wait for the jobs it submits: whatever the stations, there is
a schedule in which regionalisation and merge read the files as they were before calibration, so that the final
parameters are not calibrated. -/
theorem C62_violated_cluster (ids : List ℕ) (todo : ℕ → List S) (calib : ℕ → S → σ → σ) (files : ℕ → σ) (k : ℕ) :
    mergedFiles .cluster k ids todo calib files [] = some files := rfl

/-- **C62.**  The basins that are calibrated are those numbered from 1 to the number of directories; so all basins with a
directory are calibrated exactly if the directories are numbered without gaps from 1 on. -/
theorem C62_basins (dirs : Finset ℕ) :
    (basinIds dirs).Nodup ∧ ((∀ b ∈ dirs, b ∈ basinIds dirs) ↔ dirs = Finset.Icc 1 dirs.card) := by
  have hmem : ∀ b, b ∈ basinIds dirs ↔ b ∈ Finset.Icc 1 dirs.card := by
    intro b
    unfold basinIds
    rw [List.mem_map, Finset.mem_Icc]
    constructor
    · rintro ⟨a, ha, rfl⟩; rw [List.mem_range] at ha; omega
    · rintro ⟨h1, h2⟩; exact ⟨b - 1, by rw [List.mem_range]; omega, by omega⟩
  refine ⟨?_, ?_⟩
  · unfold basinIds
    exact List.nodup_range.map fun a b h => by omega
  · constructor
    · intro h
      apply Finset.eq_of_subset_of_card_le
      · intro b hb; exact (hmem b).1 (h b hb)
      · simp
    · intro h b hb
      rw [hmem, ← h]; exact hb

/-- **C62 violated.**  With basins 1 and 3 only, basin 3 is never calibrated, in no schedule; the run ends as if it were. -/
theorem C62_violated_gap (todo : ℕ → List S) (calib : ℕ → S → σ → σ) (files : ℕ → σ) (k : ℕ) (acts : List Act) (f : ℕ → σ)
    (h : mergedFiles .localPool k (basinIds {1, 3}) todo calib files acts = some f) : f 3 = files 3 := by
  have := (C62_result (C62_basins {1, 3}).1 todo calib files k acts f h).1 3
  rw [this, if_neg (by decide)]

/-- **C62 violated.**  The list of a basin whose stations were all taken out of the station file is not rewritten: the
stations of the previous calibration are calibrated. -/
theorem C62_violated_stale_stations (old : ℕ → Option (List S)) (order : List ℤ) (station : ℤ → Option (S × ℕ)) (b : ℕ)
    (l : List S) (hold : old b = some l) (hno : ∀ a ∈ order, ∀ s b', station a = some (s, b') → b' ≠ b) :
    stationsToDo (stationsCsv old order station) b = l := by
  have : basinGroup order station b = [] := by
    unfold basinGroup orderedStations
    rw [List.map_eq_nil_iff, List.filter_eq_nil_iff]
    intro e he
    obtain ⟨a, ha, hs⟩ := List.mem_filterMap.1 he
    simp only [beq_iff_eq]
    exact hno a ha e.1 e.2 hs
  simp [stationsToDo, stationsCsv, this, hold]

/-! ## Non-vacuity -/

/-- Two basins with two stations and one station; calibrating a station appends it to the file. -/
def exTodo : ℕ → List String := fun b => if b = 1 then ["a", "b"] else if b = 2 then ["c"] else []

def exCalib : ℕ → String → List String → List String := fun _ s f => f ++ [s]

/-- Two threads whose steps alternate. -/
def exActs : List Act :=
  [.take, .take, .work 0, .work 1, .work 1, .work 0, .work 0, .work 1, .work 0, .work 0]

example : ∃ f, mergedFiles .localPool 2 [1, 2] exTodo exCalib (fun _ => []) exActs = some f ∧ f 1 = ["a", "b"] ∧
    f 2 = ["c"] := ⟨_, rfl, rfl, rfl⟩

/-- With one thread the result is the same. -/
example : ∃ f, mergedFiles .localPool 1 [1, 2] exTodo exCalib (fun _ => [])
    [.take, .work 0, .take, .work 0, .work 0, .work 0, .work 0, .take, .work 0, .work 0, .work 0] = some f ∧
    f 1 = ["a", "b"] ∧ f 2 = ["c"] := ⟨_, rfl, rfl, rfl⟩

/-- A start in the middle of the log, as `C62_order` needs it. -/
example : (poolRun 2 exTodo exCalib (poolStart [1, 2] fun _ => []) exActs).log =
    [.start 1 "a", .start 2 "c", .done 2 "c", .done 1 "a"] ++ .start 1 "b" :: [.done 1 "b"] := rfl

/-- Cells 1 → 2 → 3, stations in 1 and 3 of the same basin. -/
def exFlow : InflowTable := fun c => if c = 2 then some [1] else if c = 3 then some [2] else none

theorem exFlow_drains (a c : ℤ) : DrainsInto exFlow a c ↔ (a = 1 ∧ c = 2) ∨ (a = 2 ∧ c = 3) := by
  unfold DrainsInto exFlow
  constructor
  · rintro ⟨-, row, h, hm⟩
    split_ifs at h with h2 h3
    · injection h with h; subst h; simp at hm; exact Or.inl ⟨hm, h2⟩
    · injection h with h; subst h; simp at hm; exact Or.inr ⟨hm, h3⟩
  · rintro (⟨rfl, rfl⟩ | ⟨rfl, rfl⟩) <;> simp

example : (∀ a c, DrainsInto exFlow a c → ([1, 2, 3] : List ℤ).idxOf a < ([1, 2, 3] : List ℤ).idxOf c) ∧
    (∀ a c d, DrainsInto exFlow a c → DrainsInto exFlow a d → c = d) ∧ Reaches exFlow 1 3 ∧
    basinGroup ([1, 2, 3] : List ℤ) (fun a => if a = 1 then some ("a", 5) else if a = 3 then some ("b", 5) else none) 5 =
      ["a", "b"] := by
  refine ⟨?_, ?_, ?_, by decide⟩
  · intro a c h
    rw [exFlow_drains] at h
    rcases h with ⟨rfl, rfl⟩ | ⟨rfl, rfl⟩ <;> decide
  · intro a c d h1 h2
    rw [exFlow_drains] at h1 h2
    omega
  · exact (Relation.ReflTransGen.single ((exFlow_drains 1 2).2 (Or.inl ⟨rfl, rfl⟩))).tail
      ((exFlow_drains 2 3).2 (Or.inr ⟨rfl, rfl⟩))

end WG
