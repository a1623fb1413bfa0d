import Verif.Lemmas.ShapeProof
import Verif.Spec.Shape
/-! Degrees, sizes, claims and commitments of a session, counted from its calls. -/
set_option linter.unusedSectionVars false
namespace Zksql
open Spec PTracker
variable {F C B : Type} [Field F]

/-- The identifier of the handle with number `i`. -/
def hid (hs : List TPoly) (i : Nat) : Nat := ((hs[i]?).map (·.id)).getD 0

theorem hid_append {hs l : List TPoly} {i : Nat} (h : i < hs.length) : hid (hs ++ l) i = hid hs i := by
  unfold hid
  rw [List.getElem?_append_left h]

/-- What is known of a state from the calls that led to it. -/
structure Traced (commit : Mle F → Res C) (ops : List (POp F C)) (st : PState F C) : Prop where
  inv : StInv commit st
  lt : ∀ h ∈ st.handles, h.id < st.tracker.idCounter
  ids : (st.handles.map (·.id)).Pairwise (· < ·)
  len : (degrees commit ops).length = st.handles.length
  deg : ∀ (i : Nat) (h : TPoly) (d : Nat), st.handles[i]? = some h → (degrees commit ops)[i]? = some d → DegIs st.tracker h.id d
  nvs : st.handles.map (·.numVars) = sizes commit ops
  held : ∀ e ∈ st.tracker.mats, ∃ h ∈ st.handles, h.numVars = e.2.mle.numVars
  zeroLt : ∀ i ∈ ops.filterMap POp.zeroed, i < st.handles.length
  zero : st.tracker.zeroClaims = (ops.filterMap POp.zeroed).map (hid st.handles)
  sumLt : ∀ i ∈ ops.filterMap POp.summed, i < st.handles.length
  sum : st.tracker.sumClaims.map (·.1) = (ops.filterMap POp.summed).map (hid st.handles)
  comms : st.tracker.comms.map (·.2) = (ops.filterMap (POp.committed commit)).reverse

variable {commit : Mle F → Res C} {H : Oracle F C} {st st' : PState F C} {ops : List (POp F C)}

theorem degrees_snoc (op : POp F C) : degrees commit (ops ++ [op]) = degStep commit (degrees commit ops) op := by
  unfold degrees
  rw [List.foldl_append]; rfl

theorem sizes_snoc (op : POp F C) : sizes commit (ops ++ [op]) = sizeStep commit (sizes commit ops) op := by
  unfold sizes
  rw [List.foldl_append]; rfl

theorem Traced.nv (hT : Traced commit ops st) {i : Nat} {a : TPoly} (hi : st.handles[i]? = some a) : (sizes commit ops).getD i 0 = a.numVars := by
  rw [← hT.nvs, List.getD_eq_getElem?_getD, List.getElem?_map, hi]; rfl

theorem Traced.inj (hT : Traced commit ops st) {i j : Nat} {a b : TPoly} (hi : st.handles[i]? = some a) (hj : st.handles[j]? = some b) (h : a.id = b.id) : i = j := by
  obtain ⟨li, ei⟩ := List.getElem?_eq_some_iff.1 hi
  obtain ⟨lj, ej⟩ := List.getElem?_eq_some_iff.1 hj
  have hp := List.pairwise_iff_getElem.1 hT.ids
  by_contra hne
  rcases Nat.lt_or_gt_of_ne hne with h' | h'
  · have := hp i j (by simpa using li) (by simpa using lj) h'
    simp only [List.getElem_map, ei, ej] at this
    omega
  · have := hp j i (by simpa using lj) (by simpa using li) h'
    simp only [List.getElem_map, ei, ej] at this
    omega

theorem Traced.getD (hT : Traced commit ops st) {i : Nat} {a : TPoly} (hi : st.handles[i]? = some a) : DegIs st.tracker a.id ((degrees commit ops).getD i 1) := by
  obtain ⟨li, ei⟩ := List.getElem?_eq_some_iff.1 hi
  have hl : i < (degrees commit ops).length := by rw [hT.len]; exact li
  rw [List.getD_eq_getElem?_getD, List.getElem?_eq_getElem hl]
  exact hT.deg i a _ hi (List.getElem?_eq_getElem hl)

/-- Members of an association list whose keys are below a bound are not removed by inserting the bound. -/
theorem amInsert_fresh {α : Type} (k : Nat) (v : α) (m : List (Nat × α)) (h : ∀ e ∈ m, e.1 ≠ k) : amInsert k v m = (k, v) :: m := by
  unfold amInsert
  rw [List.filter_eq_self.2]
  intro e he
  simpa using h e he

/-- A call that gives a new handle. -/
theorem Traced.new (hT : Traced commit ops st) {op : POp F C} (h : op.run commit H st = .ok st') (hz : op.zeroed = none) (hsm : op.summed = none)
    {a : TPoly} {ds : List Nat} {d : Nat} (hh : st'.handles = st.handles ++ [a])
    (hds : degStep commit (degrees commit ops) op = ds ++ [d]) (hlen : ds.length = (degrees commit ops).length)
    (hns : sizeStep commit (sizes commit ops) op = sizes commit ops ++ [a.numVars])
    (hold : ∀ (i : Nat) (b : TPoly) (d : Nat), st.handles[i]? = some b → ds[i]? = some d → DegIs st'.tracker b.id d) (hnew : DegIs st'.tracker a.id d)
    (hsz : ∀ e ∈ st'.tracker.mats, e ∈ st.tracker.mats ∨ (∃ b ∈ st.handles ++ [a], b.numVars = e.2.mle.numVars))
    (hzc : st'.tracker.zeroClaims = st.tracker.zeroClaims) (hsc : st'.tracker.sumClaims = st.tracker.sumClaims)
    (hcm : st'.tracker.comms.map (·.2) = (op.committed commit).toList ++ st.tracker.comms.map (·.2)) : Traced commit (ops ++ [op]) st' := by
  have hs := run_stepOk hT.inv op h
  obtain ⟨new, e1, e2, e3⟩ := hs.handles
  have hnew1 : new = [a] := by rw [hh] at e1; exact (List.append_cancel_left e1).symm
  subst hnew1
  have hmap : ∀ l : List Nat, (∀ i ∈ l, i < st.handles.length) → l.map (hid (st.handles ++ [a])) = l.map (hid st.handles) := fun l hl =>
    List.map_congr_left fun i hi => hid_append (hl i hi)
  have hfz : (ops ++ [op]).filterMap POp.zeroed = ops.filterMap POp.zeroed := by rw [List.filterMap_append]; simp [hz]
  have hfs : (ops ++ [op]).filterMap POp.summed = ops.filterMap POp.summed := by rw [List.filterMap_append]; simp [hsm]
  refine ⟨hs.inv, ?_, ?_, ?_, ?_, by rw [hh, List.map_append, hT.nvs, sizes_snoc, hns]; rfl, ?_, ?_, ?_, ?_, ?_, ?_⟩
  · intro b hb
    rw [hh] at hb
    rcases List.mem_append.1 hb with hb | hb
    · exact lt_of_lt_of_le (hT.lt b hb) hs.pres.cnt
    · exact (e3 b hb).2
  · rw [hh, List.map_append, List.pairwise_append]
    refine ⟨hT.ids, by simp, ?_⟩
    intro x hx y hy
    obtain ⟨b, hb, rfl⟩ := List.mem_map.1 hx
    obtain ⟨c, hc, rfl⟩ := List.mem_map.1 hy
    exact lt_of_lt_of_le (hT.lt b hb) (e3 c hc).1
  · rw [degrees_snoc, hds, hh]
    simp [hlen, hT.len]
  · intro i b d' hi hd
    rw [hh] at hi
    rw [degrees_snoc, hds] at hd
    rcases Nat.lt_or_ge i st.handles.length with hl | hl
    · rw [List.getElem?_append_left hl] at hi
      rw [List.getElem?_append_left (by rw [hlen, hT.len]; exact hl)] at hd
      exact hold i b d' hi hd
    · rw [List.getElem?_append_right hl] at hi
      rw [List.getElem?_append_right (by rw [hlen, hT.len]; exact hl), hlen, hT.len] at hd
      rcases e : i - st.handles.length with _ | n
      · rw [e] at hi hd
        obtain rfl : a = b := by simpa using hi
        obtain rfl : d = d' := by simpa using hd
        exact hnew
      · rw [e] at hi; simp at hi
  · intro e he
    rw [hh]
    rcases hsz e he with h1 | h1
    · obtain ⟨b, hb, e2⟩ := hT.held e h1
      exact ⟨b, List.mem_append_left _ hb, e2⟩
    · exact h1
  · intro i hi
    rw [hfz] at hi
    rw [hh, List.length_append]
    exact Nat.lt_of_lt_of_le (hT.zeroLt i hi) (Nat.le_add_right _ _)
  · rw [hzc, hfz, hh, hmap _ hT.zeroLt, hT.zero]
  · intro i hi
    rw [hfs] at hi
    rw [hh, List.length_append]
    exact Nat.lt_of_lt_of_le (hT.sumLt i hi) (Nat.le_add_right _ _)
  · rw [hsc, hfs, hh, hmap _ hT.sumLt, hT.sum]
  · rw [hcm, hT.comms, List.filterMap_append, List.reverse_append]
    congr 1
    rcases e : op.committed commit with _ | c <;> simp [e]

/-- A call that gives no handle. -/
theorem Traced.other (hT : Traced commit ops st) {op : POp F C} (h : op.run commit H st = .ok st') (hh : st'.handles = st.handles)
    (hlen : (degStep commit (degrees commit ops) op).length = (degrees commit ops).length) (hns : sizeStep commit (sizes commit ops) op = sizes commit ops)
    (hold : ∀ (i : Nat) (b : TPoly) (d : Nat), st.handles[i]? = some b → (degStep commit (degrees commit ops) op)[i]? = some d → DegIs st'.tracker b.id d)
    (hsz : ∀ e ∈ st'.tracker.mats, e ∈ st.tracker.mats ∨ (∃ b ∈ st.handles, b.numVars = e.2.mle.numVars))
    (hzl : ∀ i ∈ op.zeroed, i < st.handles.length) (hsl : ∀ i ∈ op.summed, i < st.handles.length)
    (hzc : st'.tracker.zeroClaims = st.tracker.zeroClaims ++ (op.zeroed.toList.map (hid st.handles)))
    (hsc : st'.tracker.sumClaims.map (·.1) = st.tracker.sumClaims.map (·.1) ++ (op.summed.toList.map (hid st.handles)))
    (hco : op.committed commit = none) (hcm : st'.tracker.comms = st.tracker.comms) : Traced commit (ops ++ [op]) st' := by
  have hs := run_stepOk hT.inv op h
  have hf : ∀ (f : POp F C → Option Nat), (ops ++ [op]).filterMap f = ops.filterMap f ++ (f op).toList := by
    intro f
    rw [List.filterMap_append]
    rcases e : f op with _ | x <;> simp [e]
  refine ⟨hs.inv, ?_, by rw [hh]; exact hT.ids, by rw [degrees_snoc, hlen, hh, hT.len], ?_, by rw [hh, hT.nvs, sizes_snoc, hns], ?_, ?_, ?_, ?_, ?_, ?_⟩
  · intro b hb
    rw [hh] at hb
    exact lt_of_lt_of_le (hT.lt b hb) hs.pres.cnt
  · intro i b d hi hd
    rw [hh] at hi
    rw [degrees_snoc] at hd
    exact hold i b d hi hd
  · intro e he
    rw [hh]
    rcases hsz e he with h1 | h1
    · exact hT.held e h1
    · exact h1
  · intro i hi
    rw [hh]
    rw [hf] at hi
    rcases List.mem_append.1 hi with hi | hi
    · exact hT.zeroLt i hi
    · exact hzl i (by simpa using hi)
  · rw [hzc, hf, hh, List.map_append, hT.zero]
  · intro i hi
    rw [hh]
    rw [hf] at hi
    rcases List.mem_append.1 hi with hi | hi
    · exact hT.sumLt i hi
    · exact hsl i (by simpa using hi)
  · rw [hsc, hf, hh, List.map_append, hT.sum]
  · rw [hcm, hT.comms, List.filterMap_append]
    simp [hco]

theorem traced_init : Traced commit ([] : List (POp F C)) (PState.init : PState F C) :=
  ⟨stInv_init, by simp [PState.init], by simp [PState.init], rfl, by simp [PState.init], rfl, by simp [PState.init, PTracker.new], by simp, rfl, by simp, rfl, rfl⟩

/-! ### The calls -/

theorem mem_pushMat {t : PTracker F C} {p : Mle F} {e : Nat × ArcMle F} (h : e ∈ (t.pushMat p).mats) : e ∈ t.mats ∨ e.2.mle = p := by
  unfold PTracker.pushMat pushArc amInsert at h
  rcases List.mem_cons.1 h with rfl | h
  · exact .inr rfl
  · exact .inl (List.mem_filter.1 h).1

theorem materialize_mem {t t' : PTracker F C} {i : Nat} (h : materialize i t = (.ok (), t')) {e : Nat × ArcMle F} (he : e ∈ t'.mats) : e ∈ t.mats ∨ t'.mats.lookup i = some e.2 := by
  unfold materialize at h
  split at h
  · obtain ⟨-, rfl⟩ := Prod.mk.inj h
    exact .inl he
  · split at h
    · simp at h
    · obtain ⟨m, s1, h1, h⟩ := Act.bind_eq_ok.1 h
      obtain ⟨-, rfl⟩ := Prod.mk.inj h1
      obtain ⟨a, s2, h2, h⟩ := Act.bind_eq_ok.1 h
      obtain ⟨-, rfl⟩ := Prod.mk.inj h2
      obtain ⟨-, rfl⟩ := Prod.mk.inj h
      simp only [amInsert] at he
      rcases List.mem_cons.1 he with rfl | he
      · exact .inr (by simp [lookup_amInsert])
      · exact .inl (List.mem_filter.1 he).1

theorem materialize_rest {t t' : PTracker F C} {i : Nat} (h : materialize i t = (.ok (), t')) :
    t'.idCounter = t.idCounter ∧ t'.zeroClaims = t.zeroClaims ∧ t'.sumClaims = t.sumClaims ∧ t'.comms = t.comms := by
  unfold materialize at h
  split at h
  · obtain ⟨-, rfl⟩ := Prod.mk.inj h
    exact ⟨rfl, rfl, rfl, rfl⟩
  · split at h
    · simp at h
    · obtain ⟨m, s1, h1, h⟩ := Act.bind_eq_ok.1 h
      obtain ⟨-, rfl⟩ := Prod.mk.inj h1
      obtain ⟨a, s2, h2, h⟩ := Act.bind_eq_ok.1 h
      obtain ⟨-, rfl⟩ := Prod.mk.inj h2
      obtain ⟨-, rfl⟩ := Prod.mk.inj h
      exact ⟨rfl, rfl, rfl, rfl⟩

theorem degIs_materialize {t t' : PTracker F C} {i id d : Nat} (h : PTracker.materialize i t = (.ok (), t')) (hne : id ≠ i) (hd : DegIs t id d) : DegIs t' id d := by
  obtain ⟨a, b⟩ := materialize_other h hne
  unfold DegIs
  rw [a, b]
  exact hd

/-- After a handle has become a table its degree is 1 and the others are what they were. -/
theorem Traced.set (hT : Traced commit ops st) {i : Nat} {a : TPoly} (hi : st.handles[i]? = some a) {t1 : PTracker F C}
    (h : materialize a.id st.tracker = (.ok (), t1)) : ∀ (j : Nat) (b : TPoly) (d : Nat), st.handles[j]? = some b → ((degrees commit ops).set i 1)[j]? = some d → DegIs t1 b.id d := by
  have hrun := materialize_run hT.inv.inv (hT.inv.known a (List.mem_of_getElem? hi))
  rw [h] at hrun
  obtain ⟨-, e⟩ := Prod.mk.inj hrun
  obtain ⟨_, _, m, hm, _⟩ := matSt_spec hT.inv.inv (hT.inv.known a (List.mem_of_getElem? hi))
  rw [← e] at hm
  intro j b d hj hd
  by_cases hij : j = i
  · subst hij
    rw [hi] at hj
    obtain rfl := Option.some.inj hj
    rw [List.getElem?_set_self'] at hd
    rcases hx : (degrees commit ops)[j]? with _ | x <;> rw [hx] at hd <;> simp at hd
    subst hd
    exact .inl ⟨m, hm, rfl⟩
  · rw [List.getElem?_set_ne (by omega)] at hd
    exact degIs_materialize h (fun e => hij (hT.inj hj hi e)) (hT.deg j b d hj hd)

theorem increaseNv_inv {t t' : PTracker F C} {inc : Mle F → Nat → Res (Mle F)} {id k j : Nat} (h : increaseNv inc id k t = (.ok j, t')) :
    ∃ t1 b, materialize id t = (.ok (), t1) ∧ t'.mats = amInsert t1.idCounter b t1.mats ∧ t'.virts = t1.virts ∧ t'.zeroClaims = t1.zeroClaims ∧
      t'.sumClaims = t1.sumClaims ∧ t'.comms = t1.comms := by
  unfold increaseNv at h
  obtain ⟨u, t1, h1, h⟩ := Act.bind_eq_ok.1 h
  obtain ⟨a, t2, h2, h⟩ := Act.bind_eq_ok.1 h
  obtain ⟨b, t3, h3, h6⟩ := Act.bind_eq_ok.1 h
  obtain ⟨-, rfl⟩ := Prod.mk.inj h2
  have e3 : t3.idCounter = t1.idCounter ∧ t3.mats = t1.mats ∧ t3.virts = t1.virts ∧ t3.zeroClaims = t1.zeroClaims ∧ t3.sumClaims = t1.sumClaims ∧ t3.comms = t1.comms := by
    unfold incArc at h3
    split at h3
    · obtain ⟨-, rfl⟩ := Prod.mk.inj h3
      exact ⟨rfl, rfl, rfl, rfl, rfl, rfl⟩
    · obtain ⟨m, s1, h4, h5⟩ := Act.bind_eq_ok.1 h3
      obtain ⟨-, rfl⟩ := Prod.mk.inj h4
      obtain ⟨-, rfl⟩ := Prod.mk.inj h5
      exact ⟨rfl, rfl, rfl, rfl, rfl, rfl⟩
  have e4 : t' = t3.pushArc b := (Prod.mk.inj h6).2.symm
  refine ⟨t1, b, h1, ?_⟩
  obtain ⟨a1, a2, a3, a4, a5, a6⟩ := e3
  rw [e4]
  simp only [pushArc, a1, a2, a3, a4, a5, a6, and_self]

theorem Traced.inc (hT : Traced commit ops st) {op : POp F C} (h : op.run commit H st = .ok st') (hz : op.zeroed = none) (hsm : op.summed = none)
    (hco : op.committed commit = none) {i k : Nat} {a : TPoly} (ha : st.handles[i]? = some a) {inc : Mle F → Nat → Res (Mle F)}
    (hd : degStep commit (degrees commit ops) op = (degrees commit ops).set i 1 ++ [1])
    (hns : sizeStep commit (sizes commit ops) op = sizes commit ops ++ [a.numVars + k])
    (h1 : increaseNv inc a.id k st.tracker = (.ok st.tracker.idCounter, st'.tracker)) (hh : st'.handles = st.handles ++ [⟨st.tracker.idCounter, a.numVars + k⟩])
    (hnv : st'.tracker.HasNv st.tracker.idCounter (a.numVars + k)) : Traced commit (ops ++ [op]) st' := by
  have hk := hT.inv.known a (List.mem_of_getElem? ha)
  obtain ⟨t1, b, hm, e1, e2, e3, e4, e5⟩ := increaseNv_inv h1
  obtain ⟨r1, r2, r3, r4⟩ := materialize_rest hm
  have hmat := materialize_run hT.inv.inv hk
  obtain ⟨hI1, _, m, hl, _, hn, _⟩ := matSt_spec hT.inv.inv hk
  rw [hm] at hmat
  have hmat : t1 = st.tracker.matSt a.id a.numVars := (Prod.mk.inj hmat).2
  rw [← hmat] at hI1 hl
  have hF1 := FreshAbove.of_inv hI1
  have hb : b.mle.numVars = a.numVars + k := by
    rcases hnv with ⟨x, hx, hx'⟩ | ⟨hx, _⟩
    · rw [e1, r1, lookup_amInsert, if_pos rfl] at hx
      obtain rfl := Option.some.inj hx
      exact hx'
    · rw [e1, r1, lookup_amInsert, if_pos rfl] at hx
      cases hx
  refine hT.new h hz hsm hh hd (by simp) hns ?_ (.inl ⟨b, by rw [e1, r1, lookup_amInsert, if_pos rfl], rfl⟩) ?_ (e3.trans r2) (e4.trans r3) (by rw [e5, r4, hco]; rfl)
  · intro j c d hj hd
    have := hT.set ha hm j c d hj hd
    have hlt := hT.lt c (List.mem_of_getElem? hj)
    have e : st'.tracker.mats.lookup c.id = t1.mats.lookup c.id := by
      rw [e1, r1, lookup_amInsert, if_neg (by omega)]
    unfold DegIs
    rw [e, e2]
    exact this
  · intro e he
    rw [e1] at he
    unfold amInsert at he
    rcases List.mem_cons.1 he with rfl | he
    · exact .inr ⟨_, List.mem_append_right _ (List.mem_singleton.2 rfl), hb.symm⟩
    · rcases materialize_mem hm (List.mem_filter.1 he).1 with h | h
      · exact .inl h
      · rw [hl] at h
        obtain rfl := Option.some.inj h
        exact .inr ⟨a, List.mem_append_left _ (List.mem_of_getElem? ha), hn.symm⟩

theorem Traced.run (hT : Traced commit ops st) (op : POp F C) (h : op.run commit H st = .ok st') : Traced commit (ops ++ [op]) st' := by
  have hF := FreshAbove.of_inv hT.inv.inv
  have mem : ∀ {i : Nat} {a : TPoly}, st.handles[i]? = some a → st.tracker.HasNv a.id a.numVars := fun {i a} e =>
    hT.inv.known a (List.mem_of_getElem? e)
  have run := h
  cases op with
  | track p hp =>
    have e : TPoly.trackMat p st.tracker = (.ok ⟨st.tracker.idCounter, p.numVars⟩, st.tracker.pushMat p) := rfl
    simp only [POp.run] at h
    rw [stepHandle_ok e] at h
    injection h with h; subst h
    refine hT.new run rfl rfl rfl rfl rfl rfl (fun i b d hi hd => (hT.deg i b d hi hd).pushMat hF p) (degIs_newMat p) ?_ rfl rfl rfl
    intro e he
    rcases mem_pushMat he with h | h
    · exact .inl h
    · exact .inr ⟨_, List.mem_append_right _ (List.mem_singleton.2 rfl), by rw [h]⟩
  | commit p hp =>
    simp only [POp.run] at h
    rcases hc : commit p with er | c
    · have e : TPoly.trackAndCommit commit p st.tracker = (.error er, st.tracker) := by
        unfold TPoly.trackAndCommit
        rw [Act.bind_error (trackAndCommit_error hc)]
      unfold stepHandle at h
      rw [e] at h
      rcases er with er | _
      · simp only at h
        injection h with h; subst h
        have hd : degStep commit (degrees commit ops) (.commit p hp) = degrees commit ops := by simp [degStep, hc, Except.isOk, Except.toBool]
        refine hT.other run rfl (by rw [hd]) (by simp [sizeStep, hc, Except.isOk, Except.toBool]) (by rw [hd]; exact hT.deg) (fun e he => .inl he) (by simp [POp.zeroed]) (by simp [POp.summed])
          (by simp [POp.zeroed]) (by simp [POp.summed]) (by simp [POp.committed, hc, Except.toOption]) rfl
      · simp at h
    · have e : TPoly.trackAndCommit commit p st.tracker = (.ok ⟨st.tracker.idCounter, p.numVars⟩, st.tracker.pushComm p c) := by
        unfold TPoly.trackAndCommit
        rw [Act.bind_ok (trackAndCommit_ok hc)]; rfl
      rw [stepHandle_ok e] at h
      injection h with h; subst h
      have hd : degStep commit (degrees commit ops) (.commit p hp) = degrees commit ops ++ [1] := by simp [degStep, hc, Except.isOk, Except.toBool]
      refine hT.new run rfl rfl rfl hd rfl (by simp [sizeStep, hc, Except.isOk, Except.toBool]) (fun i b d hi hd => ((hT.deg i b d hi hd).pushMat hF p).same rfl rfl) ((degIs_newMat p).same rfl rfl) ?_ rfl rfl ?_
      · intro e he
        rcases mem_pushMat (t := st.tracker) (p := p) he with h | h
        · exact .inl h
        · exact .inr ⟨_, List.mem_append_right _ (List.mem_singleton.2 rfl), by rw [h]⟩
      · show (amInsert st.tracker.idCounter c st.tracker.comms).map _ = _
        rw [amInsert_fresh _ _ _ (by
          intro e he hk
          obtain ⟨c', hc'⟩ := lookup_of_mem_keys st.tracker.comms e.1 (List.mem_map.2 ⟨e, he, rfl⟩)
          obtain ⟨a, ha, _⟩ := hT.inv.inv.commOk e.1 c' hc'
          rw [hk, (hF _ (le_refl _)).1] at ha
          cases ha)]
        simp [POp.committed, hc, Except.toOption]
  | add i j =>
    simp only [POp.run] at h
    obtain ⟨a, ha, h⟩ := idx_bind_ok h
    obtain ⟨b, hb, h⟩ := idx_bind_ok h
    by_cases hab : a.numVars = b.numVars
    · obtain ⟨v, h1, h2, _⟩ := addSubPolys_run hT.inv.inv (mem ha) (hab ▸ mem hb) false
      have e : a.add b st.tracker = (.ok ⟨st.tracker.idCounter, a.numVars⟩, st.tracker.pushVirt v) := by
        unfold TPoly.add
        rw [Act.bind_ok (Act.assert_true hab _), Act.bind_ok h1]; rfl
      rw [stepHandle_ok e] at h
      injection h with h; subst h
      obtain ⟨v', r, _, e'⟩ := addSub_inv h1
      have hv : v' = v := by
        have := congrArg (fun s => s.virts.lookup st.tracker.idCounter) e'
        simp [PTracker.pushVirt, lookup_amInsert] at this
        exact this.symm
      subst hv
      exact hT.new run rfl rfl rfl rfl rfl (by simp only [sizeStep, hT.nv ha]) (fun i b d hi hd => (hT.deg i b d hi hd).pushVirt hF v') (degIs_new hF (addSubRep_maxLen (hT.getD ha) (hT.getD hb) r))
        (fun e he => .inl he) rfl rfl rfl
    · have e : a.add b st.tracker = (.error .panic, st.tracker) := by
        unfold TPoly.add
        rw [Act.bind_error (assert_false_run hab _)]
      unfold stepHandle at h
      rw [e] at h; simp at h
  | sub i j =>
    simp only [POp.run] at h
    obtain ⟨a, ha, h⟩ := idx_bind_ok h
    obtain ⟨b, hb, h⟩ := idx_bind_ok h
    by_cases hab : a.numVars = b.numVars
    · obtain ⟨v, h1, h2, _⟩ := addSubPolys_run hT.inv.inv (mem ha) (hab ▸ mem hb) true
      have e : a.sub b st.tracker = (.ok ⟨st.tracker.idCounter, a.numVars⟩, st.tracker.pushVirt v) := by
        unfold TPoly.sub
        rw [Act.bind_ok (Act.assert_true hab _), Act.bind_ok h1]; rfl
      rw [stepHandle_ok e] at h
      injection h with h; subst h
      obtain ⟨v', r, _, e'⟩ := addSub_inv h1
      have hv : v' = v := by
        have := congrArg (fun s => s.virts.lookup st.tracker.idCounter) e'
        simp [PTracker.pushVirt, lookup_amInsert] at this
        exact this.symm
      subst hv
      exact hT.new run rfl rfl rfl rfl rfl (by simp only [sizeStep, hT.nv ha]) (fun i b d hi hd => (hT.deg i b d hi hd).pushVirt hF v') (degIs_new hF (addSubRep_maxLen (hT.getD ha) (hT.getD hb) r))
        (fun e he => .inl he) rfl rfl rfl
    · have e : a.sub b st.tracker = (.error .panic, st.tracker) := by
        unfold TPoly.sub
        rw [Act.bind_error (assert_false_run hab _)]
      unfold stepHandle at h
      rw [e] at h; simp at h
  | mul i j =>
    simp only [POp.run] at h
    obtain ⟨a, ha, h⟩ := idx_bind_ok h
    obtain ⟨b, hb, h⟩ := idx_bind_ok h
    by_cases hab : a.numVars = b.numVars
    · obtain ⟨v, h1, h2, _⟩ := mulPolys_run hT.inv.inv (mem ha) (hab ▸ mem hb)
      have e : a.mul b st.tracker = (.ok ⟨st.tracker.idCounter, a.numVars⟩, st.tracker.pushVirt v) := by
        unfold TPoly.mul
        rw [Act.bind_ok (Act.assert_true hab _), Act.bind_ok h1]; rfl
      rw [stepHandle_ok e] at h
      injection h with h; subst h
      obtain ⟨v', r, _, e'⟩ := mul_inv' h1
      have hv : v' = v := by
        have := congrArg (fun s => s.virts.lookup st.tracker.idCounter) e'
        simp [PTracker.pushVirt, lookup_amInsert] at this
        exact this.symm
      subst hv
      exact hT.new run rfl rfl rfl rfl rfl (by simp only [sizeStep, hT.nv ha]) (fun i b d hi hd => (hT.deg i b d hi hd).pushVirt hF v') (degIs_new hF (mulRep_maxLen (hT.getD ha) (hT.getD hb) r))
        (fun e he => .inl he) rfl rfl rfl
    · have e : a.mul b st.tracker = (.error .panic, st.tracker) := by
        unfold TPoly.mul
        rw [Act.bind_error (assert_false_run hab _)]
      unfold stepHandle at h
      rw [e] at h; simp at h
  | addScalar i c =>
    simp only [POp.run] at h
    obtain ⟨a, ha, h⟩ := idx_bind_ok h
    have hI' := inv_pushMat hT.inv.inv _ (constMle_wf a.numVars c)
    have hk := keep_pushMat hT.inv.inv (constMle a.numVars c)
    obtain ⟨v, h1, h2, _⟩ := addSubPolys_run hI' ((mem ha).keep hT.inv.inv hk) (hasNv_pushMat st.tracker (constMle a.numVars c)) false
    obtain ⟨w, k1, _⟩ := addScalar_run hT.inv.inv (mem ha) c
    have hF' := fresh_pushMat hF (constMle a.numVars c)
    have e : a.addScalar c st.tracker = (.ok ⟨st.tracker.idCounter + 1, a.numVars⟩, (st.tracker.pushMat (constMle a.numVars c)).pushVirt w) := by
      unfold TPoly.addScalar
      rw [Act.bind_ok k1]; rfl
    rw [stepHandle_ok e] at h
    injection h with h; subst h
    have hw : ∃ w', (st.tracker.pushMat (constMle a.numVars c)).addSubRep a.id st.tracker.idCounter false = .ok w' ∧ w' = w := by
      unfold PTracker.addScalar at k1
      obtain ⟨nv, s1, g1, k1⟩ := Act.bind_eq_ok.1 k1
      obtain ⟨g5, rfl⟩ := Prod.mk.inj g1
      obtain ⟨m, s2, g2, k1⟩ := Act.bind_eq_ok.1 k1
      obtain ⟨g2, rfl⟩ := Prod.mk.inj g2
      obtain ⟨sid, s3, g3, k1⟩ := Act.bind_eq_ok.1 k1
      rw [trackMat_run] at g3
      obtain ⟨g4, rfl⟩ := Prod.mk.inj g3
      obtain rfl := Except.ok.inj g4
      obtain ⟨w', r, _, e'⟩ := addSub_inv k1
      have g6 : st.tracker.getPolyNv a.id = .ok nv := g5
      rw [getPolyNv_spec (mem ha)] at g6
      obtain rfl := Except.ok.inj g6
      have hm : m = constMle a.numVars c := by
        have := congrArg (fun s => (s.mats.lookup st.tracker.idCounter).map (·.mle)) e'
        simp [PTracker.pushVirt, PTracker.pushMat, pushArc, lookup_amInsert] at this
        exact this.symm
      subst hm
      refine ⟨w', r, ?_⟩
      have := congrArg (fun s => s.virts.lookup (st.tracker.idCounter + 1)) e'
      simp [PTracker.pushVirt, PTracker.pushMat, pushArc, lookup_amInsert] at this
      exact this.symm
    obtain ⟨w', r, rfl⟩ := hw
    refine hT.new run rfl rfl rfl rfl rfl (by simp only [sizeStep, hT.nv ha]) (fun i b d hi hd => ((hT.deg i b d hi hd).pushMat hF _).pushVirt hF' w') ?_ ?_ rfl rfl rfl
    · have h1 := addSubRep_maxLen ((hT.getD ha).pushMat hF _) (degIs_newMat _) r
      have h2 : 1 ≤ (degrees commit ops).getD i 1 := by
        rcases hT.getD ha with ⟨_, _, e⟩ | ⟨_, v, hv, _, q, hq, e⟩
        · omega
        · have := ((hT.inv.inv.virtOk _ v hv).2.2)
          obtain ⟨nv, hnv⟩ := this
          have := (hnv.2 q hq).1
          rw [← e]
          exact List.length_pos_of_ne_nil this
      have e : max ((degrees commit ops).getD i 1) 1 = (degrees commit ops).getD i 1 := by omega
      rw [e] at h1
      exact degIs_new hF' h1
    · intro e he
      rcases mem_pushMat (t := st.tracker) (p := constMle a.numVars c) he with h | h
      · exact .inl h
      · exact .inr ⟨_, List.mem_append_right _ (List.mem_singleton.2 rfl), by rw [h]; rfl⟩
  | mulScalar i c =>
    simp only [POp.run] at h
    obtain ⟨a, ha, h⟩ := idx_bind_ok h
    obtain ⟨v, h1, h2, _⟩ := mulScalar_run hT.inv.inv (mem ha) c
    have e : a.mulScalar c st.tracker = (.ok ⟨st.tracker.idCounter, a.numVars⟩, st.tracker.pushVirt v) := by
      unfold TPoly.mulScalar
      rw [Act.bind_ok h1]; rfl
    rw [stepHandle_ok e] at h
    injection h with h; subst h
    obtain ⟨v', r, _, e'⟩ := mulScalar_inv h1
    have hv : v' = v := by
      have := congrArg (fun s => s.virts.lookup st.tracker.idCounter) e'
      simp [PTracker.pushVirt, lookup_amInsert] at this
      exact this.symm
    subst hv
    exact hT.new run rfl rfl rfl rfl rfl (by simp only [sizeStep, hT.nv ha]) (fun i b d hi hd => (hT.deg i b d hi hd).pushVirt hF v') (degIs_new hF (mulScalarRep_maxLen (hT.getD ha) r))
      (fun e he => .inl he) rfl rfl rfl
  | incFront i k =>
    simp only [POp.run] at h
    obtain ⟨a, ha, h⟩ := idx_bind_ok h
    obtain ⟨t', p, q, h1, h2, _⟩ := newOk_inc hT.inv.inv (mem ha) increaseNvFront k incFront_ok (incFront_wf k)
    have e : a.incFront k st.tracker = (.ok ⟨st.tracker.idCounter, a.numVars + k⟩, t') := by
      unfold TPoly.incFront
      rw [Act.bind_ok h1]; rfl
    rw [stepHandle_ok e] at h
    injection h with h; subst h
    exact hT.inc run rfl rfl rfl ha rfl (by simp only [sizeStep, hT.nv ha]) h1 rfl h2.nv
  | incBack i k =>
    simp only [POp.run] at h
    obtain ⟨a, ha, h⟩ := idx_bind_ok h
    obtain ⟨t', p, q, h1, h2, _⟩ := newOk_inc hT.inv.inv (mem ha) increaseNvBack k incBack_ok (incBack_wf k)
    have e : a.incBack k st.tracker = (.ok ⟨st.tracker.idCounter, a.numVars + k⟩, t') := by
      unfold TPoly.incBack
      rw [Act.bind_ok h1]; rfl
    rw [stepHandle_ok e] at h
    injection h with h; subst h
    exact hT.inc run rfl rfl rfl ha rfl (by simp only [sizeStep, hT.nv ha]) h1 rfl h2.nv
  | evaluations i =>
    simp only [POp.run] at h
    obtain ⟨a, ha, h⟩ := idx_bind_ok h
    have hmat := materialize_run hT.inv.inv (mem ha)
    unfold TPoly.evaluations at h
    rw [stepOther_ok (evaluations_run hT.inv.inv (mem ha))] at h
    injection h with h; subst h
    obtain ⟨r1, r2, r3, r4⟩ := materialize_rest hmat
    obtain ⟨_, _, m, hm, _, hn, _⟩ := matSt_spec hT.inv.inv (mem ha)
    refine hT.other run rfl (by simp [degStep]) rfl (hT.set ha hmat) ?_ (by simp [POp.zeroed]) (by simp [POp.summed])
      (by simpa [POp.zeroed] using r2) (by simp [POp.summed, r3]) rfl r4
    intro e he
    rcases materialize_mem hmat he with h | h
    · exact .inl h
    · rw [hm] at h
      obtain rfl := Option.some.inj h
      exact .inr ⟨a, List.mem_of_getElem? ha, hn.symm⟩
  | challenge label =>
    simp only [POp.run] at h
    rcases hc : st.tracker.transcript.challenge H label with er | ⟨c, tr⟩
    · have e : PTracker.challenge H label st.tracker = (.error er, st.tracker) := by unfold PTracker.challenge; rw [hc]
      unfold stepOther at h
      rw [e] at h
      rcases er with er | _
      · simp only at h
        injection h with h; subst h
        exact hT.other run rfl rfl rfl hT.deg (fun e he => .inl he) (by simp [POp.zeroed]) (by simp [POp.summed]) (by simp [POp.zeroed]) (by simp [POp.summed]) rfl rfl
      · simp at h
    · have e : PTracker.challenge H label st.tracker = (.ok c, { st.tracker with transcript := tr }) := by
        unfold PTracker.challenge; rw [hc]
      rw [stepOther_ok e] at h
      injection h with h; subst h
      exact hT.other run rfl rfl rfl (fun i b d hi hd => (hT.deg i b d hi hd).same rfl rfl) (fun e he => .inl he) (by simp [POp.zeroed]) (by simp [POp.summed]) (by simp [POp.zeroed]) (by simp [POp.summed]) rfl rfl
  | append label d =>
    simp only [POp.run] at h
    rw [stepOther_ok (h := ()) (t' := { st.tracker with transcript := st.tracker.transcript.append label d }) rfl] at h
    injection h with h; subst h
    exact hT.other run rfl rfl rfl (fun i b d hi hd => (hT.deg i b d hi hd).same rfl rfl) (fun e he => .inl he) (by simp [POp.zeroed]) (by simp [POp.summed]) (by simp [POp.zeroed]) (by simp [POp.summed]) rfl rfl
  | sumClaim i v =>
    simp only [POp.run] at h
    obtain ⟨a, ha, h⟩ := idx_bind_ok h
    rw [stepOther_ok (h := ()) (t' := { st.tracker with sumClaims := st.tracker.sumClaims ++ [(a.id, v)] }) rfl] at h
    injection h with h; subst h
    obtain ⟨li, _⟩ := List.getElem?_eq_some_iff.1 ha
    exact hT.other run rfl rfl rfl (fun i b d hi hd => (hT.deg i b d hi hd).same rfl rfl) (fun e he => .inl he) (by simp [POp.zeroed]) (by simpa [POp.summed] using li) (by simp [POp.zeroed])
      (by simp [POp.summed, hid, ha]) rfl rfl
  | zeroClaim i =>
    simp only [POp.run] at h
    obtain ⟨a, ha, h⟩ := idx_bind_ok h
    rw [stepOther_ok (h := ()) (t' := { st.tracker with zeroClaims := st.tracker.zeroClaims ++ [a.id] }) rfl] at h
    injection h with h; subst h
    obtain ⟨li, _⟩ := List.getElem?_eq_some_iff.1 ha
    exact hT.other run rfl rfl rfl (fun i b d hi hd => (hT.deg i b d hi hd).same rfl rfl) (fun e he => .inl he) (by simpa [POp.zeroed] using li) (by simp [POp.summed])
      (by simp [POp.zeroed, hid, ha]) (by simp [POp.summed]) rfl rfl

theorem Traced.runAll (hT : Traced commit ops st) (more : List (POp F C)) (h : runOps commit H st more = .ok st') : Traced commit (ops ++ more) st' := by
  induction more generalizing ops st with
  | nil => rw [show st' = st from (Except.ok.inj h).symm, List.append_nil]; exact hT
  | cons op more ih =>
    simp only [runOps, List.foldlM_cons] at h
    obtain ⟨s1, h1, h2⟩ := aft_bind_inv h
    have := ih (hT.run op h1) h2
    rwa [List.append_assoc] at this

/-! ### Calls of the same kind -/

theorem sameKind_step {commit' : Mle F → Res C} {op op' : POp F C} (h : SameKind commit commit' op op') :
    (∀ l, degStep commit l op = degStep commit' l op') ∧ (∀ l, sizeStep commit l op = sizeStep commit' l op') ∧ op.zeroed = op'.zeroed ∧ op.summed = op'.summed ∧
      (op.committed commit).isSome = (op'.committed commit').isSome := by
  cases op <;> cases op' <;> simp only [SameKind] at h <;> simp only [degStep, sizeStep, POp.zeroed, POp.summed, POp.committed, h, and_self, implies_true]
  case commit.commit p _ p' _ =>
    obtain ⟨_, h2⟩ := h
    refine ⟨trivial, trivial, trivial, trivial, ?_⟩
    revert h2
    rcases commit p with _ | _ <;> rcases commit' p' with _ | _ <;> simp [Except.isOk, Except.toBool, Except.toOption]

theorem sameKind_counts {commit' : Mle F → Res C} {ops' : List (POp F C)} (hs : List.Forall₂ (SameKind commit commit') ops ops') (debug : Bool) :
    largest commit ops = largest commit' ops' ∧ proofDegree debug commit ops = proofDegree debug commit' ops' ∧ commitCount commit ops = commitCount commit' ops' ∧
      sumCount ops = sumCount ops' := by
  have hd : ∀ l, ops.foldl (degStep commit) l = ops'.foldl (degStep commit') l := by
    induction hs with
    | nil => intro l; rfl
    | cons h _ ih => intro l; rw [List.foldl_cons, List.foldl_cons, (sameKind_step h).1, ih]
  have hn : ∀ l, ops.foldl (sizeStep commit) l = ops'.foldl (sizeStep commit') l := by
    clear hd
    induction hs with
    | nil => intro l; rfl
    | cons h _ ih =>
      intro l
      rw [List.foldl_cons, List.foldl_cons, (sameKind_step h).2.1, ih]
  have hz : ops.filterMap POp.zeroed = ops'.filterMap POp.zeroed := by
    clear hd hn
    induction hs with
    | nil => rfl
    | cons h _ ih => rw [List.filterMap_cons, List.filterMap_cons, (sameKind_step h).2.2.1, ih]
  have hsm : ops.filterMap POp.summed = ops'.filterMap POp.summed := by
    clear hd hn hz
    induction hs with
    | nil => rfl
    | cons h _ ih => rw [List.filterMap_cons, List.filterMap_cons, (sameKind_step h).2.2.2.1, ih]
  have hcm : commitCount commit ops = commitCount commit' ops' := by
    clear hd hn hz hsm
    unfold commitCount
    induction hs with
    | nil => rfl
    | cons h _ ih =>
      have := (sameKind_step h).2.2.2.2
      rw [List.filterMap_cons, List.filterMap_cons]
      revert this
      rcases POp.committed commit _ <;> rcases POp.committed commit' _ <;> simp [ih]
  refine ⟨by unfold largest sizes; rw [hn], ?_, hcm, by unfold sumCount; rw [hsm]⟩
  unfold proofDegree zeroDegree degrees
  rw [hd, hz, hsm]

end Zksql
