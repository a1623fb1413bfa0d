import Verif.Spec.Layout
import Verif.Lemmas.Compile
/-! Nothing depends on the order of maps or on addresses. -/
set_option linter.unusedSectionVars false
namespace Zksql
open Spec PTracker
variable {F C B : Type} [Field F]

/-! ### Maps -/

section Maps
variable {κ α : Type} [BEq κ] [LawfulBEq κ]

theorem Spec.SameMap.symm {m m' : List (κ × α)} (h : SameMap m m') : SameMap m' m := ⟨h.once', h.once, fun k => (h.lookup k).symm⟩
theorem Spec.SameMap.trans {m m' m'' : List (κ × α)} (h : SameMap m m') (h' : SameMap m' m'') : SameMap m m'' :=
  ⟨h.once, h'.once', fun k => (h.lookup k).trans (h'.lookup k)⟩

theorem keys_amErase (k : κ) (m : List (κ × α)) (h : (m.map (·.1)).Nodup) : ((amErase k m).map (·.1)).Nodup := by
  unfold amErase
  exact h.sublist (List.filter_sublist.map _)

theorem keys_amInsert (k : κ) (v : α) (m : List (κ × α)) (h : (m.map (·.1)).Nodup) : ((amInsert k v m).map (·.1)).Nodup := by
  unfold amInsert
  rw [List.map_cons, List.nodup_cons]
  refine ⟨?_, h.sublist (List.filter_sublist.map _)⟩
  rw [List.mem_map]
  rintro ⟨e, he, rfl⟩
  simpa using (List.mem_filter.1 he).2

theorem Spec.SameMap.insert {m m' : List (κ × α)} (h : SameMap m m') (k : κ) (v : α) : SameMap (amInsert k v m) (amInsert k v m') :=
  ⟨keys_amInsert k v m h.once, keys_amInsert k v m' h.once', fun k' => by classical rw [lookup_amInsert, lookup_amInsert, h.lookup]⟩

theorem Spec.SameMap.erase {m m' : List (κ × α)} (h : SameMap m m') (k : κ) : SameMap (amErase k m) (amErase k m') :=
  ⟨keys_amErase k m h.once, keys_amErase k m' h.once', fun k' => by classical rw [lookup_amErase, lookup_amErase, h.lookup]⟩

theorem sameMap_nil : SameMap ([] : List (κ × α)) [] := ⟨by simp, by simp, fun _ => rfl⟩

theorem lookup_mem_keys (m : List (κ × α)) (k : κ) : k ∈ m.map (·.1) ↔ ∃ v, m.lookup k = some v := by
  induction m with
  | nil => simp
  | cons e m ih =>
    obtain ⟨a, b⟩ := e
    rw [List.map_cons, List.mem_cons, List.lookup_cons, ih]
    by_cases h : k = a
    · simp [h]
    · have : (k == a) = false := by simpa using h
      simp [h, this]

theorem Spec.SameMap.keys {m m' : List (κ × α)} (h : SameMap m m') : (m.map (·.1)).Perm (m'.map (·.1)) :=
  (List.perm_ext_iff_of_nodup h.once h.once').2 fun k => by rw [lookup_mem_keys, lookup_mem_keys, h.lookup]

theorem mem_iff_lookup (m : List (κ × α)) (h : (m.map (·.1)).Nodup) (k : κ) (v : α) : (k, v) ∈ m ↔ m.lookup k = some v := by
  induction m with
  | nil => simp
  | cons e m ih =>
    obtain ⟨a, b⟩ := e
    rw [List.map_cons, List.nodup_cons] at h
    rw [List.mem_cons, List.lookup_cons, ih h.2]
    by_cases hk : k = a
    · subst hk
      have hn : m.lookup k = none := by
        rcases hl : m.lookup k with _ | v'
        · rfl
        · exact absurd ((lookup_mem_keys m k).2 ⟨v', hl⟩) h.1
      simp [hn, eq_comm]
    · have : (k == a) = false := by simpa using hk
      simp [hk, this]

theorem Spec.SameMap.perm {m m' : List (κ × α)} (h : SameMap m m') : m.Perm m' := by
  refine (List.perm_ext_iff_of_nodup (List.Nodup.of_map _ h.once) (List.Nodup.of_map _ h.once')).2 ?_
  rintro ⟨k, v⟩
  rw [mem_iff_lookup m h.once, mem_iff_lookup m' h.once', h.lookup]

/-- Entering a map into another one entry after the other does not depend on the order. -/
theorem Spec.SameMap.enter {q q' m m' : List (κ × α)} (hq : SameMap q q') (hm : SameMap m m') :
    SameMap (q.foldl (fun m e => amInsert e.1 e.2 m) m) (q'.foldl (fun m e => amInsert e.1 e.2 m) m') := by
  classical
  have key : ∀ (q m : List (κ × α)), (q.map (·.1)).Nodup → (m.map (·.1)).Nodup →
      ((q.foldl (fun m e => amInsert e.1 e.2 m) m).map (·.1)).Nodup ∧
        ∀ k, (q.foldl (fun m e => amInsert e.1 e.2 m) m).lookup k = (q.lookup k).or (m.lookup k) := by
    intro q
    induction q with
    | nil => intro m _ hm; exact ⟨hm, fun k => by simp⟩
    | cons e q ih =>
      intro m hq hm
      obtain ⟨a, b⟩ := e
      rw [List.map_cons, List.nodup_cons] at hq
      obtain ⟨h1, h2⟩ := ih (amInsert a b m) hq.2 (keys_amInsert a b m hm)
      refine ⟨h1, fun k => ?_⟩
      rw [List.foldl_cons, h2 k, lookup_amInsert, List.lookup_cons]
      by_cases hk : k = a
      · subst hk
        have hn : q.lookup k = none := by
          rcases hl : q.lookup k with _ | v'
          · rfl
          · exact absurd ((lookup_mem_keys q k).2 ⟨v', hl⟩) hq.1
        simp [hn]
      · have : (k == a) = false := by simpa using hk
        simp [hk, this]
  obtain ⟨h1, h2⟩ := key q m hq.once hm.once
  obtain ⟨h3, h4⟩ := key q' m' hq.once' hm.once'
  exact ⟨h1, h3, fun k => by rw [h2, h4, hq.lookup, hm.lookup]⟩

theorem lookup_map_snd {β : Type} (f : α → β) (m : List (κ × α)) (k : κ) : (m.map fun e => (e.1, f e.2)).lookup k = (m.lookup k).map f := by
  induction m with
  | nil => rfl
  | cons e m ih =>
    obtain ⟨a, b⟩ := e
    rw [List.map_cons, List.lookup_cons, List.lookup_cons, ih]
    rcases h : (k == a) <;> rfl

end Maps

theorem sortedIds_same {α : Type} {m m' : List (Nat × α)} (h : SameMap m m') : sortedIds m = sortedIds m' := by
  unfold sortedIds
  have p := ((List.perm_insertionSort (· ≤ ·) (m.map (·.1))).trans h.keys).trans (List.perm_insertionSort (· ≤ ·) (m'.map (·.1))).symm
  exact p.eq_of_pairwise' (List.pairwise_insertionSort (· ≤ ·) _) (List.pairwise_insertionSort (· ≤ ·) _)

/-! ### Trackers with the same contents -/

namespace Spec.SameContents
variable {t t' t'' : PTracker F C}

theorem mat (h : SameContents t t') (id : Nat) : (t.mats.lookup id = none ∧ t'.mats.lookup id = none) ∨
    ∃ a a', t.mats.lookup id = some a ∧ t'.mats.lookup id = some a' ∧ a.mle = a'.mle := by
  have := h.mats.lookup id
  rw [lookup_map_snd (fun a : ArcMle F => a.mle), lookup_map_snd (fun a : ArcMle F => a.mle)] at this
  rcases h1 : t.mats.lookup id with _ | a <;> rcases h2 : t'.mats.lookup id with _ | a' <;> rw [h1, h2] at this <;> simp at this
  · exact Or.inl ⟨rfl, rfl⟩
  · exact Or.inr ⟨a, a', rfl, rfl, this⟩

theorem symm (h : SameContents t t') : SameContents t' t :=
  ⟨h.transcript.symm, h.counter.symm, h.sums.symm, h.zeros.symm, h.virts.symm, h.comms.symm, h.mats.symm,
    fun i j a b a' b' h1 h2 h3 h4 => (h.shared i j a' b' a b h3 h4 h1 h2).symm, h.unused', h.unused⟩

theorem trans (h : SameContents t t') (g : SameContents t' t'') : SameContents t t'' :=
  ⟨h.transcript.trans g.transcript, h.counter.trans g.counter, h.sums.trans g.sums, h.zeros.trans g.zeros, h.virts.trans g.virts,
    h.comms.trans g.comms, h.mats.trans g.mats,
    fun i j a b a' b' h1 h2 h3 h4 => by
      rcases h.mat i with ⟨x, _⟩ | ⟨_, c, _, hc, _⟩
      · rw [x] at h1; cases h1
      rcases h.mat j with ⟨x, _⟩ | ⟨_, c', _, hc', _⟩
      · rw [x] at h2; cases h2
      exact (h.shared i j a b c c' h1 h2 hc hc').trans (g.shared i j c c' a' b' hc hc' h3 h4), h.unused, g.unused'⟩

theorem left (h : SameContents t t') : SameContents t t := h.trans h.symm
theorem right (h : SameContents t t') : SameContents t' t' := h.symm.trans h

theorem keysL (h : SameContents t t') : (t.mats.map (·.1)).Nodup := by simpa [List.map_map, Function.comp_def] using h.mats.once

/-- A table is entered on both sides. -/
theorem insertMat (h : SameContents t t') (id : Nat) (a a' : ArcMle F) (hm : a.mle = a'.mle)
    (hp : ∀ j b b', j ≠ id → t.mats.lookup j = some b → t'.mats.lookup j = some b' → (a.ptr = b.ptr ↔ a'.ptr = b'.ptr))
    (hl : a.ptr < t.heap) (hl' : a'.ptr < t'.heap) :
    SameContents { t with mats := amInsert id a t.mats } { t' with mats := amInsert id a' t'.mats } := by
  refine ⟨h.transcript, h.counter, h.sums, h.zeros, h.virts, h.comms, ⟨?_, ?_, fun k => ?_⟩, ?_, ?_, ?_⟩
  · simpa [List.map_map, Function.comp_def] using keys_amInsert id a t.mats h.keysL
  · simpa [List.map_map, Function.comp_def] using keys_amInsert id a' t'.mats h.symm.keysL
  · have := h.mats.lookup k
    rw [lookup_map_snd (fun a : ArcMle F => a.mle), lookup_map_snd (fun a : ArcMle F => a.mle)] at this ⊢
    rw [lookup_amInsert, lookup_amInsert]
    split_ifs
    · simp [hm]
    · exact this
  · intro i j x y x' y' h1 h2 h3 h4
    change (amInsert id a t.mats).lookup i = _ at h1
    change (amInsert id a t.mats).lookup j = _ at h2
    change (amInsert id a' t'.mats).lookup i = _ at h3
    change (amInsert id a' t'.mats).lookup j = _ at h4
    rw [lookup_amInsert] at h1 h2 h3 h4
    by_cases hi : i = id <;> by_cases hj : j = id
    · rw [if_pos hi] at h1 h3
      rw [if_pos hj] at h2 h4
      cases h1; cases h2; cases h3; cases h4
      simp
    · rw [if_pos hi] at h1 h3
      rw [if_neg hj] at h2 h4
      cases h1; cases h3
      exact hp j y y' hj h2 h4
    · rw [if_neg hi] at h1 h3
      rw [if_pos hj] at h2 h4
      cases h2; cases h4
      rw [eq_comm, hp i x x' hi h1 h3, eq_comm]
    · rw [if_neg hi] at h1 h3
      rw [if_neg hj] at h2 h4
      exact h.shared i j x y x' y' h1 h2 h3 h4
  · intro i x hx
    change (amInsert id a t.mats).lookup i = _ at hx
    rw [lookup_amInsert] at hx
    split_ifs at hx
    · cases hx; exact hl
    · exact h.unused i x hx
  · intro i x hx
    change (amInsert id a' t'.mats).lookup i = _ at hx
    rw [lookup_amInsert] at hx
    split_ifs at hx
    · cases hx; exact hl'
    · exact h.unused' i x hx

theorem alloc (h : SameContents t t') : SameContents { t with heap := t.heap + 1 } { t' with heap := t'.heap + 1 } :=
  ⟨h.transcript, h.counter, h.sums, h.zeros, h.virts, h.comms, h.mats, h.shared, fun i a ha => Nat.lt_succ_of_lt (h.unused i a ha),
    fun i a ha => Nat.lt_succ_of_lt (h.unused' i a ha)⟩

/-- A new table is entered on both sides. -/
theorem insertNew (h : SameContents t t') (id : Nat) (m : Mle F) :
    SameContents { t with heap := t.heap + 1, mats := amInsert id ⟨t.heap, m⟩ t.mats } { t' with heap := t'.heap + 1, mats := amInsert id ⟨t'.heap, m⟩ t'.mats } :=
  h.alloc.insertMat id ⟨t.heap, m⟩ ⟨t'.heap, m⟩ rfl
    (fun j b b' _ h1 h2 => by
      have := h.unused j b h1
      have := h.unused' j b' h2
      constructor <;> intro (e : _ = _) <;> simp only at e <;> omega)
    (Nat.lt_succ_self _) (Nat.lt_succ_self _)

end Spec.SameContents

/-! ### Calls that do the same -/

/-- From the same contents both calls give outcomes related by `R` and leave the same contents. -/
def Alike {α β : Type} (R : α → β → Prop) (m : Act (PTracker F C) α) (m' : Act (PTracker F C) β) : Prop :=
  ∀ t t', SameContents t t' → AgreeBy R (m t).1 (m' t').1 ∧ SameContents (m t).2 (m' t').2

theorem agreeBy_eq {α : Type} {x y : Res α} : AgreeBy (· = ·) x y ↔ x = y := by
  rcases x with e | a <;> rcases y with e' | b <;> simp [AgreeBy]

theorem agreeBy_ok {α β : Type} {R : α → β → Prop} {a : α} {b : β} : AgreeBy R (.ok a) (.ok b) ↔ R a b := Iff.rfl

namespace Alike
variable {α β γ δ : Type}

theorem bind {R : α → β → Prop} {S : γ → δ → Prop} {m : Act (PTracker F C) α} {m' : Act (PTracker F C) β} {f : α → Act (PTracker F C) γ}
    {f' : β → Act (PTracker F C) δ} (h : Alike R m m') (hf : ∀ a b, R a b → Alike S (f a) (f' b)) : Alike S (m >>= f) (m' >>= f') := by
  intro t t' ht
  obtain ⟨h1, h2⟩ := h t t' ht
  rw [Act.bind_run, Act.bind_run]
  rcases e : m t with ⟨_ | a, s⟩ <;> rcases e' : m' t' with ⟨_ | b, s'⟩ <;> rw [e, e'] at h1 h2
  · exact ⟨h1, h2⟩
  · exact h1.elim
  · exact h1.elim
  · exact hf a b h1 s s' h2

/-- The common case: equal values. -/
theorem bindE {S : γ → δ → Prop} {m m' : Act (PTracker F C) α} {f : α → Act (PTracker F C) γ}
    {f' : α → Act (PTracker F C) δ} (h : Alike (· = ·) m m') (hf : ∀ a, Alike S (f a) (f' a)) : Alike S (m >>= f) (m' >>= f') :=
  h.bind fun a b e => by subst e; exact hf a

theorem pure {R : α → β → Prop} {a : α} {b : β} (h : R a b) : Alike R (Pure.pure a : Act (PTracker F C) α) (Pure.pure b) := fun _ _ ht => ⟨h, ht⟩

theorem reads {R : α → β → Prop} {f : PTracker F C → Res α} {g : PTracker F C → Res β} (h : ∀ t t', SameContents t t' → AgreeBy R (f t) (g t')) :
    Alike R (Act.reads f) (Act.reads g) := fun t t' ht => ⟨h t t' ht, ht⟩

theorem readsE {f : PTracker F C → Res α} (h : ∀ t t', SameContents t t' → f t = f t') : Alike (· = ·) (Act.reads f) (Act.reads f) :=
  reads fun t t' ht => agreeBy_eq.2 (h t t' ht)

theorem lift (r : Res α) : Alike (· = ·) (Act.lift r : Act (PTracker F C) α) (Act.lift r) := fun _ _ ht => ⟨agreeBy_eq.2 rfl, ht⟩

theorem modify {f g : PTracker F C → PTracker F C} (h : ∀ t t', SameContents t t' → SameContents (f t) (g t')) :
    Alike (· = ·) (Act.modify f) (Act.modify g) := fun t t' ht => ⟨rfl, h t t' ht⟩

theorem assert (p : Prop) [Decidable p] : Alike (· = ·) (Act.assert p : Act (PTracker F C) Unit) (Act.assert p) := by
  intro t t' ht
  unfold Act.assert
  split_ifs
  · exact ⟨rfl, ht⟩
  · exact ⟨rfl, ht⟩

theorem expect {m m' : Act (PTracker F C) α} (h : Alike (· = ·) m m') : Alike (· = ·) (Act.expect m) (Act.expect m') := by
  intro t t' ht
  obtain ⟨h1, h2⟩ := h t t' ht
  unfold Act.expect
  rcases e : m t with ⟨_ | a, s⟩ <;> rcases e' : m' t' with ⟨_ | b, s'⟩ <;> rw [e, e'] at h1 h2
  · exact ⟨rfl, h2⟩
  · exact h1.elim
  · exact h1.elim
  · exact ⟨h1, h2⟩

/-- Memory is rearranged before the second call. -/
theorem moved {R : α → β → Prop} {d : Nat → PTracker F C → PTracker F C} (hd : Rearranges d) (k : Nat) {m : Act (PTracker F C) α} {m' : Act (PTracker F C) β}
    (h : Alike R m m') : Alike R m (Act.modify (d k) >>= fun _ => m') := fun t t' ht => h t (d k t') (ht.trans (hd k t' ht.right))

end Alike

/-! ### Reading -/

section Reading
variable {t t' : PTracker F C}

theorem repNv_same (h : SameContents t t') (v : VRep F) : t.repNv v = t'.repNv v := by
  unfold repNv
  rcases idx v 0 with e | term
  · rfl
  rcases e : idx term.2 0 with _ | first
  · simp [e]
  rcases h.mat first with ⟨e1, e2⟩ | ⟨a, a', e1, e2, hm⟩ <;> simp [e, e1, e2]
  rw [hm]

theorem getPolyNv_same (h : SameContents t t') (id : Nat) : t.getPolyNv id = t'.getPolyNv id := by
  unfold getPolyNv
  rcases h.mat id with ⟨e1, e2⟩ | ⟨a, a', e1, e2, hm⟩
  · rw [e1, e2, h.virts.lookup id]
    rcases t'.virts.lookup id with _ | v
    · rfl
    · exact repNv_same h v
  · simp only [e1, e2, hm]

theorem addSubRep_same (h : SameContents t t') (p q : Nat) (s : Bool) : t.addSubRep p q s = t'.addSubRep p q s := by
  unfold addSubRep
  rw [h.virts.lookup p, h.virts.lookup q]
  rcases h.mat p with ⟨e1, e2⟩ | ⟨a, a', e1, e2, hm⟩ <;> rcases h.mat q with ⟨e3, e4⟩ | ⟨b, b', e3, e4, hm'⟩ <;> rw [e1, e2, e3, e4] <;>
    rcases t'.virts.lookup p with _ | v <;> rcases t'.virts.lookup q with _ | w <;> rfl

theorem mulRep_same (h : SameContents t t') (p q : Nat) : t.mulRep p q = t'.mulRep p q := by
  unfold mulRep
  rw [h.virts.lookup p, h.virts.lookup q]
  rcases h.mat p with ⟨e1, e2⟩ | ⟨a, a', e1, e2, hm⟩ <;> rcases h.mat q with ⟨e3, e4⟩ | ⟨b, b', e3, e4, hm'⟩ <;> rw [e1, e2, e3, e4] <;>
    rcases t'.virts.lookup p with _ | v <;> rcases t'.virts.lookup q with _ | w <;> rfl

theorem mulScalarRep_same (h : SameContents t t') (p : Nat) (c : F) : t.mulScalarRep p c = t'.mulScalarRep p c := by
  unfold mulScalarRep
  rw [h.virts.lookup p]
  rcases h.mat p with ⟨e1, e2⟩ | ⟨a, a', e1, e2, hm⟩ <;> rw [e1, e2]

theorem evalsAt_same (h : SameContents t t') {α : Type} (f : Mle F → Res α) (id : Nat) :
    (unwrap (t.mats.lookup id) >>= fun a => f a.mle) = (unwrap (t'.mats.lookup id) >>= fun a => f a.mle) := by
  rcases h.mat id with ⟨e1, e2⟩ | ⟨a, a', e1, e2, hm⟩ <;> simp [e1, e2]
  rw [hm]

theorem prodEvals_same (h : SameContents t t') (nv : Nat) (q : F × List Nat) : t.prodEvals nv q = t'.prodEvals nv q := by
  unfold prodEvals
  have : (fun id => unwrap (t.mats.lookup id) >>= fun a => (Except.ok a.mle.evals : Res (List F))) =
      fun id => unwrap (t'.mats.lookup id) >>= fun a => (Except.ok a.mle.evals : Res (List F)) :=
    funext fun id => evalsAt_same h (fun m => .ok m.evals) id
  rw [this]

theorem materializeRep_same (h : SameContents t t') (v : VRep F) : t.materializeRep v = t'.materializeRep v := by
  unfold materializeRep
  rw [repNv_same h]
  have : t.prodEvals = t'.prodEvals := by funext nv q; exact prodEvals_same h nv q
  rw [this]

theorem evaluate_same (h : SameContents t t') (id : Nat) (pt : List F) : t.evaluate id pt = t'.evaluate id pt := by
  unfold PTracker.evaluate
  rcases h.mat id with ⟨e1, e2⟩ | ⟨a, a', e1, e2, hm⟩
  · rw [e1, e2, h.virts.lookup id]
    rcases t'.virts.lookup id with _ | v
    · rfl
    · have : (fun m => unwrap (t.mats.lookup m) >>= fun a => unwrap (a.mle.evaluate pt)) =
          fun m => unwrap (t'.mats.lookup m) >>= fun a => unwrap (a.mle.evaluate pt) :=
        funext fun m => evalsAt_same h (fun p => unwrap (p.evaluate pt)) m
      simp only [this]
  · simp only [e1, e2, hm]

theorem maxMatNv_same (h : SameContents t t') : t.maxMatNv = t'.maxMatNv := by
  have hp := h.mats.perm
  by_cases e : t.mats = []
  · have e' : t'.mats = [] := by
      rw [e] at hp
      exact List.eq_nil_of_length_eq_zero (by simpa using hp.length_eq.symm)
    unfold maxMatNv
    rw [e, e']
  · have e' : t'.mats ≠ [] := by
      intro x
      rw [x] at hp
      exact e (List.eq_nil_of_length_eq_zero (by simpa using hp.length_eq))
    have move : ∀ {t t' : PTracker F C}, (t.mats.map fun e => (e.1, e.2.mle)).Perm (t'.mats.map fun e => (e.1, e.2.mle)) → ∀ x ∈ t.mats, ∃ y ∈ t'.mats, y.2.mle = x.2.mle := by
      intro t t' hp x hx
      have := hp.mem_iff.1 (List.mem_map_of_mem hx)
      obtain ⟨y, hy, he⟩ := List.mem_map.1 this
      exact ⟨y, hy, (Prod.mk.inj he).2⟩
    obtain ⟨N, h1, h2, x, hx, h3⟩ := maxMatNv_spec e
    obtain ⟨N', h1', h2', x', hx', h3'⟩ := maxMatNv_spec e'
    rw [h1, h1']
    congr 1
    apply le_antisymm
    · obtain ⟨y, hy, ey⟩ := move hp x hx
      rw [← h3, ← ey]
      exact h2' y hy
    · obtain ⟨y, hy, ey⟩ := move hp.symm x' hx'
      rw [← h3', ← ey]
      exact h2 y hy

end Reading
/-! ### Calls of the tracker -/

theorem genId_alike : Alike (F := F) (C := C) (· = ·) genId genId := by
  intro t t' h
  refine ⟨?_, ⟨h.transcript, ?_, h.sums, h.zeros, h.virts, h.comms, h.mats, h.shared, h.unused, h.unused'⟩⟩
  · exact h.counter
  · change t.idCounter + 1 = t'.idCounter + 1
    rw [h.counter]

theorem trackMat_alike (p : Mle F) : Alike (F := F) (C := C) (· = ·) (trackMat p) (trackMat p) := by
  intro t t' h
  refine ⟨h.counter, ?_⟩
  have h1 : SameContents { t with idCounter := t.idCounter + 1 } { t' with idCounter := t'.idCounter + 1 } := (genId_alike t t' h).2
  have := h1.insertNew t.idCounter p
  have e : trackMat p t' = (.ok t'.idCounter, { t' with heap := t'.heap + 1, idCounter := t'.idCounter + 1, mats := amInsert t'.idCounter ⟨t'.heap, p⟩ t'.mats }) := rfl
  rw [e, ← h.counter]
  rw [← h.counter] at this
  exact this

theorem trackVirt_alike (v : VRep F) : Alike (F := F) (C := C) (· = ·) (trackVirt v) (trackVirt v) := by
  unfold trackVirt
  refine genId_alike.bindE fun id => ?_
  refine Alike.bindE (Alike.modify fun t t' h => ?_) fun _ => Alike.pure rfl
  exact ⟨h.transcript, h.counter, h.sums, h.zeros, h.virts.insert id v, h.comms, h.mats, h.shared, h.unused, h.unused'⟩

theorem appendTr_same {t t' : PTracker F C} (h : SameContents t t') (tr : Transcript F C) : SameContents { t with transcript := tr } { t' with transcript := tr } :=
  ⟨rfl, h.counter, h.sums, h.zeros, h.virts, h.comms, h.mats, h.shared, h.unused, h.unused'⟩

theorem append_alike (label : String) (d : TItem F C) : Alike (F := F) (C := C) (· = ·) (append label d) (append label d) :=
  Alike.modify fun t t' h => by
    rw [h.transcript]
    exact appendTr_same h _

theorem trackAndCommit_alike (commit : Mle F → Res C) (p : Mle F) :
    Alike (F := F) (C := C) (· = ·) (PTracker.trackAndCommit commit p) (PTracker.trackAndCommit commit p) := by
  unfold PTracker.trackAndCommit
  refine (Alike.lift _).bindE fun c => ?_
  refine (trackMat_alike p).bindE fun id => ?_
  refine Alike.bindE (Alike.modify fun t t' h => ?_) fun _ => (append_alike "comm" (.comm c)).bindE fun _ => Alike.pure rfl
  exact ⟨h.transcript, h.counter, h.sums, h.zeros, h.virts, h.comms.insert id c, h.mats, h.shared, h.unused, h.unused'⟩

theorem addSubPolys_alike (p q : Nat) (s : Bool) : Alike (F := F) (C := C) (· = ·) (addSubPolys p q s) (addSubPolys p q s) :=
  (Alike.readsE fun _ _ h => addSubRep_same h p q s).bindE trackVirt_alike

theorem mulPolys_alike (p q : Nat) : Alike (F := F) (C := C) (· = ·) (mulPolys p q) (mulPolys p q) :=
  (Alike.readsE fun _ _ h => mulRep_same h p q).bindE trackVirt_alike

theorem mulScalar_alike (p : Nat) (c : F) : Alike (F := F) (C := C) (· = ·) (mulScalar p c) (mulScalar p c) :=
  (Alike.readsE fun _ _ h => mulScalarRep_same h p c).bindE trackVirt_alike

theorem addScalar_alike (p : Nat) (c : F) : Alike (F := F) (C := C) (· = ·) (addScalar p c) (addScalar p c) := by
  unfold PTracker.addScalar
  refine (Alike.readsE fun _ _ h => getPolyNv_same h p).bindE fun nv => ?_
  refine (Alike.lift _).bindE fun m => ?_
  exact (trackMat_alike m).bindE fun sid => addSubPolys_alike p sid false

theorem materialize_alike (id : Nat) : Alike (F := F) (C := C) (· = ·) (materialize id) (materialize id) := by
  intro t t' h
  unfold materialize
  rcases h.mat id with ⟨e1, e2⟩ | ⟨a, a', e1, e2, hm⟩
  · rw [e1, e2, h.virts.lookup id]
    rcases t'.virts.lookup id with _ | v
    · exact ⟨rfl, h⟩
    · simp only [materializeRep_same h]
      rcases t'.materializeRep v with e | m
      · exact ⟨rfl, h⟩
      · refine ⟨trivial, ?_⟩
        have := h.insertNew id m
        exact ⟨this.transcript, this.counter, this.sums, this.zeros, this.virts.erase id, this.comms, this.mats, this.shared, this.unused, this.unused'⟩
  · rw [e1, e2]
    exact ⟨rfl, h⟩

theorem evaluations_alike (id : Nat) : Alike (F := F) (C := C) (· = ·) (PTracker.evaluations id) (PTracker.evaluations id) := by
  unfold PTracker.evaluations
  refine (materialize_alike id).bindE fun _ => ?_
  refine Alike.bind (R := fun a b : ArcMle F => a.mle = b.mle) (Alike.reads fun t t' h => ?_) fun a b e => Alike.pure (congrArg Mle.evals e)
  rcases h.mat id with ⟨e1, e2⟩ | ⟨a, a', e1, e2, hm⟩
  · rw [e1, e2]; exact rfl
  · rw [e1, e2]; exact hm

theorem increaseNv_alike (inc : Mle F → Nat → Res (Mle F)) (id k : Nat) : Alike (F := F) (C := C) (· = ·) (increaseNv inc id k) (increaseNv inc id k) := by
  unfold increaseNv
  refine (materialize_alike id).bindE fun _ => ?_
  intro t t' h
  rcases h.mat id with ⟨e1, e2⟩ | ⟨a, a', e1, e2, hm⟩
  · rw [Act.bind_error (s := t) (e := .panic) (s' := t) (by simp [e1]), Act.bind_error (s := t') (e := .panic) (s' := t') (by simp [e2])]
    exact ⟨rfl, h⟩
  · rw [Act.bind_ok (m := Act.reads fun t => unwrap (t.mats.lookup id)) (s := t) (a := a) (s' := t) (by simp [e1]),
      Act.bind_ok (m := Act.reads fun t => unwrap (t.mats.lookup id)) (s := t') (a := a') (s' := t') (by simp [e2])]
    unfold incArc
    simp only [← hm]
    by_cases hk : a.mle.numVars = a.mle.numVars + k
    · rw [if_pos hk, if_pos hk]
      refine ⟨h.counter, ?_⟩
      have h1 : SameContents { t with idCounter := t.idCounter + 1 } { t' with idCounter := t'.idCounter + 1 } := (genId_alike t t' h).2
      have := h1.insertMat t.idCounter a a' hm (fun j b b' _ hb hb' => h.shared id j a b a' b' e1 hb e2 hb') (h.unused id a e1) (h.unused' id a' e2)
      have e : (Pure.pure a' >>= fun b => trackMatArc b : Act (PTracker F C) Nat) t' =
        (.ok t'.idCounter, { t' with idCounter := t'.idCounter + 1, mats := amInsert t'.idCounter a' t'.mats }) := rfl
      rw [e, ← h.counter]
      rw [← h.counter] at this
      exact this
    · rw [if_neg hk, if_neg hk]
      rcases inc a.mle (a.mle.numVars + k) with e | m
      · exact ⟨rfl, h⟩
      · exact trackMat_alike m t t' h

theorem addSumClaim_alike (id : Nat) (v : F) : Alike (F := F) (C := C) (· = ·) (addSumClaim id v) (addSumClaim id v) :=
  Alike.modify fun t t' h => ⟨h.transcript, h.counter, by
    change t.sumClaims ++ _ = t'.sumClaims ++ _
    rw [h.sums], h.zeros, h.virts, h.comms, h.mats, h.shared, h.unused, h.unused'⟩

theorem addZeroClaim_alike (id : Nat) : Alike (F := F) (C := C) (· = ·) (addZeroClaim id) (addZeroClaim id) :=
  Alike.modify fun t t' h => ⟨h.transcript, h.counter, h.sums, by
    change t.zeroClaims ++ _ = t'.zeroClaims ++ _
    rw [h.zeros], h.virts, h.comms, h.mats, h.shared, h.unused, h.unused'⟩

theorem challenge_alike (H : Oracle F C) (label : String) : Alike (F := F) (C := C) (· = ·) (PTracker.challenge H label) (PTracker.challenge H label) := by
  intro t t' h
  unfold PTracker.challenge
  rw [← h.transcript]
  rcases t.transcript.challenge H label with e | ⟨c, tr⟩
  · exact ⟨rfl, h⟩
  · exact ⟨rfl, appendTr_same h tr⟩

theorem challengesU_alike (H : Oracle F C) (label : String) (n : Nat) : Alike (F := F) (C := C) (· = ·) (PTracker.challengesU H label n) (PTracker.challengesU H label n) := by
  intro t t' h
  unfold PTracker.challengesU
  rw [← h.transcript]
  rcases t.transcript.challenges H label n with e | ⟨c, tr⟩
  · exact ⟨rfl, h⟩
  · exact ⟨rfl, appendTr_same h tr⟩

/-! ### Histories -/

/-- Same handles, same contents. -/
def SameState (st st' : PState F C) : Prop := st.handles = st'.handles ∧ SameContents st.tracker st'.tracker

theorem stepHandle_same {st st' : PState F C} (h : SameState st st') {m : Act (PTracker F C) TPoly} (hm : Alike (· = ·) m m) :
    AgreeBy SameState (stepHandle st m) (stepHandle st' m) := by
  obtain ⟨h1, h2⟩ := hm _ _ h.2
  unfold stepHandle
  rcases e : m st.tracker with ⟨(_ | _) | a, s⟩ <;> rcases e' : m st'.tracker with ⟨(_ | _) | b, s'⟩ <;> rw [e, e'] at h1 h2 <;> simp only [AgreeBy, reduceCtorEq] at h1 ⊢
  · exact ⟨h.1, h2⟩
  · exact ⟨by rw [h.1, h1], h2⟩

theorem stepOther_same {α : Type} {st st' : PState F C} (h : SameState st st') {m : Act (PTracker F C) α} (hm : Alike (· = ·) m m) :
    AgreeBy SameState (stepOther st m) (stepOther st' m) := by
  obtain ⟨h1, h2⟩ := hm _ _ h.2
  unfold stepOther
  rcases e : m st.tracker with ⟨(_ | _) | a, s⟩ <;> rcases e' : m st'.tracker with ⟨(_ | _) | b, s'⟩ <;> rw [e, e'] at h1 h2 <;> simp only [AgreeBy, reduceCtorEq] at h1 ⊢
  · exact ⟨h.1, h2⟩
  · exact ⟨h.1, h2⟩

theorem agreeBy_bind {α β γ δ : Type} {R : α → β → Prop} {S : γ → δ → Prop} {x : Res α} {y : Res β} {f : α → Res γ} {g : β → Res δ}
    (h : AgreeBy R x y) (hf : ∀ a b, R a b → AgreeBy S (f a) (g b)) : AgreeBy S (x >>= f) (y >>= g) := by
  rcases x with e | a <;> rcases y with e' | b
  · exact h
  · exact h.elim
  · exact h.elim
  · exact hf a b h

theorem agreeBy_mono {α β : Type} {R S : α → β → Prop} (h : ∀ a b, R a b → S a b) {x : Res α} {y : Res β} (hx : AgreeBy R x y) : AgreeBy S x y := by
  rcases x with e | a <;> rcases y with e' | b
  · exact hx
  · exact hx.elim
  · exact hx.elim
  · exact h a b hx

theorem agreeBy_bindE {α γ δ : Type} {S : γ → δ → Prop} {x y : Res α} {f : α → Res γ} {g : α → Res δ}
    (h : x = y) (hf : ∀ a, AgreeBy S (f a) (g a)) : AgreeBy S (x >>= f) (y >>= g) :=
  agreeBy_bind (agreeBy_eq.2 h) fun a b e => by subst e; exact hf a

/-- A call that ends by wrapping the identifier. -/
theorem wrap_alike {m : Act (PTracker F C) Nat} (hm : Alike (· = ·) m m) (n : Nat) :
    Alike (· = ·) (m >>= fun id => (Pure.pure ⟨id, n⟩ : Act (PTracker F C) TPoly)) (m >>= fun id => Pure.pure ⟨id, n⟩) :=
  hm.bindE fun _ => Alike.pure rfl

theorem op_same (commit : Mle F → Res C) (H : Oracle F C) (op : POp F C) {st st' : PState F C} (h : SameState st st') :
    AgreeBy SameState (op.run commit H st) (op.run commit H st') := by
  cases op with
  | track p wf => exact stepHandle_same h (wrap_alike (trackMat_alike p) _)
  | commit p wf => exact stepHandle_same h (wrap_alike (trackAndCommit_alike commit p) _)
  | add i j =>
    refine agreeBy_bindE (by rw [h.1]) fun a => agreeBy_bindE (by rw [h.1]) fun b => stepHandle_same h ?_
    exact (Alike.assert _).bindE fun _ => wrap_alike (addSubPolys_alike _ _ _) _
  | sub i j =>
    refine agreeBy_bindE (by rw [h.1]) fun a => agreeBy_bindE (by rw [h.1]) fun b => stepHandle_same h ?_
    exact (Alike.assert _).bindE fun _ => wrap_alike (addSubPolys_alike _ _ _) _
  | mul i j =>
    refine agreeBy_bindE (by rw [h.1]) fun a => agreeBy_bindE (by rw [h.1]) fun b => stepHandle_same h ?_
    exact (Alike.assert _).bindE fun _ => wrap_alike (mulPolys_alike _ _) _
  | addScalar i c => exact agreeBy_bindE (by rw [h.1]) fun a => stepHandle_same h (wrap_alike (addScalar_alike _ _) _)
  | mulScalar i c => exact agreeBy_bindE (by rw [h.1]) fun a => stepHandle_same h (wrap_alike (mulScalar_alike _ _) _)
  | incFront i k => exact agreeBy_bindE (by rw [h.1]) fun a => stepHandle_same h (wrap_alike (increaseNv_alike _ _ _) _)
  | incBack i k => exact agreeBy_bindE (by rw [h.1]) fun a => stepHandle_same h (wrap_alike (increaseNv_alike _ _ _) _)
  | evaluations i => exact agreeBy_bindE (by rw [h.1]) fun a => stepOther_same h (evaluations_alike _)
  | challenge label => exact stepOther_same h (challenge_alike H label)
  | append label d => exact stepOther_same h (append_alike label d)
  | sumClaim i v => exact agreeBy_bindE (by rw [h.1]) fun a => stepOther_same h (addSumClaim_alike _ _)
  | zeroClaim i => exact agreeBy_bindE (by rw [h.1]) fun a => stepOther_same h (addZeroClaim_alike _)

theorem new_same : SameContents (PTracker.new : PTracker F C) PTracker.new :=
  ⟨rfl, rfl, rfl, rfl, sameMap_nil, sameMap_nil, sameMap_nil, fun i j a b a' b' h => by simp [PTracker.new] at h,
    fun i a h => by simp [PTracker.new] at h, fun i a h => by simp [PTracker.new] at h⟩

theorem runRearranged_same {d : Nat → PTracker F C → PTracker F C} (hd : Rearranges d) (commit : Mle F → Res C) (H : Oracle F C) :
    ∀ (ops : List (POp F C)) (k : Nat) {st st' : PState F C}, SameState st st' →
      AgreeBy SameState (runOps commit H st ops) (runRearranged d commit H k st' ops) := by
  intro ops
  induction ops with
  | nil => intro k st st' h; exact h
  | cons op ops ih =>
    intro k st st' h
    unfold runOps
    rw [List.foldlM_cons]
    unfold runRearranged
    have h' : SameState st ⟨d k st'.tracker, st'.handles⟩ := ⟨h.1, h.2.trans (hd k _ h.2.right)⟩
    exact agreeBy_bind (op_same commit H op h') fun a b hab => ih (k + 1) hab
/-! ### Compiling -/

/-- Extending all tables: which entry is where. -/
theorem extendMats_places (N : Nat) : ∀ (l : List (Nat × ArcMle F)) (hp : Nat), (∀ e ∈ l, e.2.mle.numVars ≤ N) → (l.map (·.1)).Nodup →
    ∃ l' hp', extendMats N l hp = .ok (l', hp') ∧ hp ≤ hp' ∧ l'.map (·.1) = l.map (·.1) ∧
      (∀ id a, l.lookup id = some a → ∃ a', l'.lookup id = some a' ∧ a'.mle = extMle N a.mle ∧ (a.mle.numVars = N → a' = a) ∧
        (a.mle.numVars ≠ N → hp ≤ a'.ptr ∧ a'.ptr < hp')) ∧
      ∀ i j a b a' b', i ≠ j → l.lookup i = some a → l.lookup j = some b → a.mle.numVars ≠ N → b.mle.numVars ≠ N →
        l'.lookup i = some a' → l'.lookup j = some b' → a'.ptr ≠ b'.ptr := by
  intro l
  induction l with
  | nil => intro hp _ _; exact ⟨[], hp, rfl, le_refl _, rfl, by simp, by simp⟩
  | cons e l ih =>
    intro hp h hn
    obtain ⟨i0, a0⟩ := e
    rw [List.map_cons, List.nodup_cons] at hn
    have ha : a0.mle.numVars ≤ N := h (i0, a0) List.mem_cons_self
    have hrest : ∀ e ∈ l, e.2.mle.numVars ≤ N := fun e he => h e (List.mem_cons_of_mem _ he)
    by_cases hv : a0.mle.numVars = N
    · obtain ⟨l', hp', e1, e2, e3, e4, e5⟩ := ih hp hrest hn.2
      refine ⟨(i0, a0) :: l', hp', ?_, e2, by simp [e3], ?_, ?_⟩
      · simp only [extendMats, hv, ne_eq, not_true_eq_false, if_false, e1, ok_bind]
      · intro id b hb
        rw [lookup_cons_if] at hb ⊢
        by_cases hk : id = i0
        · rw [if_pos hk] at hb ⊢
          cases hb
          exact ⟨a0, rfl, by rw [← hv, extMle_same], fun _ => rfl, fun x => absurd hv x⟩
        · rw [if_neg hk] at hb ⊢
          exact e4 id b hb
      · intro i j a b a' b' hij h1 h2 h3 h4 h5 h6
        rw [lookup_cons_if] at h1 h2 h5 h6
        by_cases hi : i = i0
        · rw [if_pos hi] at h1
          cases h1
          exact absurd hv h3
        · rw [if_neg hi] at h1 h5
          by_cases hj : j = i0
          · rw [if_pos hj] at h2
            cases h2
            exact absurd hv h4
          · rw [if_neg hj] at h2 h6
            exact e5 i j a b a' b' hij h1 h2 h3 h4 h5 h6
    · obtain ⟨l', hp', e1, e2, e3, e4, e5⟩ := ih (hp + 1) hrest hn.2
      obtain ⟨x1, _⟩ := extMle_spec N a0.mle ha
      refine ⟨(i0, ⟨hp, extMle N a0.mle⟩) :: l', hp', ?_, by omega, by simp [e3], ?_, ?_⟩
      · simp only [extendMats, hv, ne_eq, not_false_eq_true, if_true, x1, e1, ok_bind]
      · intro id b hb
        rw [lookup_cons_if] at hb ⊢
        by_cases hk : id = i0
        · rw [if_pos hk] at hb ⊢
          cases hb
          exact ⟨_, rfl, rfl, fun x => absurd x hv, fun _ => ⟨le_refl _, by simp only; omega⟩⟩
        · rw [if_neg hk] at hb ⊢
          obtain ⟨a', f1, f2, f3, f4⟩ := e4 id b hb
          exact ⟨a', f1, f2, f3, fun x => ⟨by have := f4 x; omega, (f4 x).2⟩⟩
      · intro i j a b a' b' hij h1 h2 h3 h4 h5 h6
        rw [lookup_cons_if] at h1 h2 h5 h6
        by_cases hi : i = i0
        · have hj : j ≠ i0 := fun x => hij (hi.trans x.symm)
          rw [if_pos hi] at h1 h5
          rw [if_neg hj] at h2 h6
          cases h5
          obtain ⟨b'', f1, _, _, f4⟩ := e4 j b h2
          obtain rfl : b' = b'' := by rw [h6] at f1; exact Option.some.inj f1
          have := f4 h4
          simp only
          omega
        · rw [if_neg hi] at h1 h5
          by_cases hj : j = i0
          · rw [if_pos hj] at h2 h6
            cases h6
            obtain ⟨a'', f1, _, _, f4⟩ := e4 i a h1
            obtain rfl : a' = a'' := by rw [h5] at f1; exact Option.some.inj f1
            have := f4 h3
            simp only
            omega
          · rw [if_neg hj] at h2 h6
            exact e5 i j a b a' b' hij h1 h2 h3 h4 h5 h6

theorem SameContents_extend {t t' : PTracker F C} (h : SameContents t t') {N : Nat} (hN : t.maxMatNv = .ok N) :
    ∃ r r', extendMats N t.mats t.heap = .ok r ∧ extendMats N t'.mats t'.heap = .ok r' ∧
      SameContents { t with mats := r.1, heap := r.2 } { t' with mats := r'.1, heap := r'.2 } := by
  have bound : ∀ {t : PTracker F C}, t.maxMatNv = .ok N → ∀ e ∈ t.mats, e.2.mle.numVars ≤ N := by
    intro t hN
    have hne : t.mats ≠ [] := by
      intro e
      unfold maxMatNv at hN
      rw [e] at hN
      cases hN
    obtain ⟨N', h1, h2, _⟩ := maxMatNv_spec hne
    rw [hN] at h1
    cases h1
    exact h2
  obtain ⟨l, hp, e1, e2, e3, e4, e5⟩ := extendMats_places N t.mats t.heap (bound hN) h.keysL
  obtain ⟨l', hp', e1', e2', e3', e4', e5'⟩ := extendMats_places N t'.mats t'.heap (bound (maxMatNv_same h ▸ hN)) h.symm.keysL
  have back : ∀ {t : PTracker F C} {l : List (Nat × ArcMle F)}, l.map (·.1) = t.mats.map (·.1) → ∀ i x, l.lookup i = some x → ∃ a, t.mats.lookup i = some a := by
    intro t l e i x hx
    exact (lookup_mem_keys t.mats i).1 (e ▸ (lookup_mem_keys l i).2 ⟨x, hx⟩)
  refine ⟨(l, hp), (l', hp'), e1, e1', h.transcript, h.counter, h.sums, h.zeros, h.virts, h.comms, ⟨?_, ?_, fun k => ?_⟩, ?_, ?_, ?_⟩
  · simpa [List.map_map, Function.comp_def, e3] using h.keysL
  · simpa [List.map_map, Function.comp_def, e3'] using h.symm.keysL
  · rw [lookup_map_snd (fun a : ArcMle F => a.mle), lookup_map_snd (fun a : ArcMle F => a.mle)]
    simp only
    rcases h.mat k with ⟨c1, c2⟩ | ⟨a, a', c1, c2, hm⟩
    · have n1 : l.lookup k = none := by
        rcases hl : l.lookup k with _ | x
        · rfl
        · obtain ⟨a, ha⟩ := back e3 k x hl
          rw [c1] at ha; cases ha
      have n2 : l'.lookup k = none := by
        rcases hl : l'.lookup k with _ | x
        · rfl
        · obtain ⟨a, ha⟩ := back e3' k x hl
          rw [c2] at ha; cases ha
      rw [n1, n2]
    · obtain ⟨x, f1, f2, _⟩ := e4 k a c1
      obtain ⟨x', f1', f2', _⟩ := e4' k a' c2
      rw [f1, f1']
      simp [f2, f2', hm]
  · intro i j x y x' y' h1 h2 h3 h4
    simp only at h1 h2 h3 h4
    by_cases hij : i = j
    · subst hij
      rw [h1] at h2
      rw [h3] at h4
      cases h2; cases h4
      simp
    obtain ⟨a, ha⟩ := back e3 i x h1
    obtain ⟨b, hb⟩ := back e3 j y h2
    obtain ⟨a', ha'⟩ := back e3' i x' h3
    obtain ⟨b', hb'⟩ := back e3' j y' h4
    have ma : a.mle = a'.mle := by
      rcases h.mat i with ⟨c1, _⟩ | ⟨_, _, c1, c2, hm⟩
      · rw [c1] at ha; cases ha
      · rw [c1] at ha; rw [c2] at ha'; cases ha; cases ha'; exact hm
    have mb : b.mle = b'.mle := by
      rcases h.mat j with ⟨c1, _⟩ | ⟨_, _, c1, c2, hm⟩
      · rw [c1] at hb; cases hb
      · rw [c1] at hb; rw [c2] at hb'; cases hb; cases hb'; exact hm
    obtain ⟨x0, f1, _, f3, f4⟩ := e4 i a ha
    obtain ⟨y0, g1, _, g3, g4⟩ := e4 j b hb
    obtain ⟨x0', f1', _, f3', f4'⟩ := e4' i a' ha'
    obtain ⟨y0', g1', _, g3', g4'⟩ := e4' j b' hb'
    rw [h1] at f1; rw [h2] at g1; rw [h3] at f1'; rw [h4] at g1'
    cases f1; cases g1; cases f1'; cases g1'
    rw [← ma] at f3' f4'
    rw [← mb] at g3' g4'
    have ua := h.unused i a ha
    have ub := h.unused j b hb
    have ua' := h.unused' i a' ha'
    have ub' := h.unused' j b' hb'
    by_cases na : a.mle.numVars = N <;> by_cases nb : b.mle.numVars = N
    · rw [f3 na, g3 nb, f3' na, g3' nb]
      exact h.shared i j a b a' b' ha hb ha' hb'
    · have q := g4 nb
      have q' := g4' nb
      rw [f3 na, f3' na]
      constructor <;> intro e <;> omega
    · have q := f4 na
      have q' := f4' na
      rw [g3 nb, g3' nb]
      constructor <;> intro e <;> omega
    · have q := e5 i j a b x y hij ha hb na nb h1 h2
      have q' := e5' i j a' b' x' y' hij ha' hb' (ma ▸ na) (mb ▸ nb) h3 h4
      exact ⟨fun e => absurd e q, fun e => absurd e q'⟩
  · intro i x hx
    simp only at hx
    obtain ⟨a, ha⟩ := back e3 i x hx
    obtain ⟨x0, f1, _, f3, f4⟩ := e4 i a ha
    rw [hx] at f1
    cases f1
    by_cases na : a.mle.numVars = N
    · rw [f3 na]
      exact lt_of_lt_of_le (h.unused i a ha) e2
    · exact (f4 na).2
  · intro i x hx
    simp only at hx
    obtain ⟨a, ha⟩ := back e3' i x hx
    obtain ⟨x0, f1, _, f3, f4⟩ := e4' i a ha
    rw [hx] at f1
    cases f1
    by_cases na : a.mle.numVars = N
    · rw [f3 na]
      exact lt_of_lt_of_le (h.unused' i a ha) e2'
    · exact (f4 na).2

theorem trueSums_alike : ∀ cs : List (Nat × F), Alike (F := F) (C := C) (· = ·) (trueSums cs) (trueSums cs)
  | [] => Alike.pure rfl
  | c :: cs => by
    unfold trueSums
    exact (evaluations_alike c.1).bindE fun e => (trueSums_alike cs).bindE fun rest => Alike.pure rfl

/-- The second half of `equalize`. -/
theorem takeSums_alike (nv : Nat) : Alike (F := F) (C := C) (· = ·)
    (do
      let claims ← Act.reads fun t => .ok t.sumClaims
      let sums ← trueSums claims
      Act.modify fun t => { t with sumClaims := List.zipWith (fun c s => (c.1, s)) t.sumClaims sums }
      Pure.pure nv : Act (PTracker F C) Nat)
    (do
      let claims ← Act.reads fun t => .ok t.sumClaims
      let sums ← trueSums claims
      Act.modify fun t => { t with sumClaims := List.zipWith (fun c s => (c.1, s)) t.sumClaims sums }
      Pure.pure nv : Act (PTracker F C) Nat) := by
  refine (Alike.readsE fun t t' h => by rw [h.sums]).bindE fun claims => ?_
  refine (trueSums_alike claims).bindE fun sums => ?_
  refine Alike.bindE (Alike.modify fun t t' h => ?_) fun _ => Alike.pure rfl
  exact ⟨h.transcript, h.counter, by rw [h.sums], h.zeros, h.virts, h.comms, h.mats, h.shared, h.unused, h.unused'⟩

theorem equalize_alike {d : Nat → PTracker F C → PTracker F C} (hd : Rearranges d) : Alike (· = ·) (equalize (F := F) (C := C)) (equalizeRearranged d) := by
  refine Alike.moved hd 0 ?_
  intro t t' h
  rcases hN : t.maxMatNv with e | N
  · have hN' : t'.maxMatNv = .error e := by rw [← maxMatNv_same h, hN]
    unfold equalize
    rw [Act.bind_error (m := Act.reads maxMatNv) (s := t) (s' := t) (e := e) (by simp [hN]),
      Act.bind_error (m := Act.reads maxMatNv) (s := t') (s' := t') (e := e) (by simp [hN'])]
    exact ⟨rfl, h⟩
  · have hN' : t'.maxMatNv = .ok N := by rw [← maxMatNv_same h, hN]
    have h1 := h.trans (hd 1 t' h.right)
    obtain ⟨r, r', x1, x2, h2⟩ := SameContents_extend h1 hN
    unfold equalize
    rw [Act.bind_ok (m := Act.reads maxMatNv) (s := t) (s' := t) (a := N) (by simp [hN]),
      Act.bind_ok (m := Act.reads maxMatNv) (s := t') (s' := t') (a := N) (by simp [hN'])]
    rw [Act.bind_ok (m := Act.modify (d 1)) (s := t') (s' := d 1 t') (a := ()) rfl]
    rw [Act.bind_ok (m := Act.reads fun t => extendMats N t.mats t.heap) (s := t) (s' := t) (a := r) (by simp [x1]),
      Act.bind_ok (m := Act.reads fun t => extendMats N t.mats t.heap) (s := d 1 t') (s' := d 1 t') (a := r') (by simp [x2])]
    exact Alike.moved hd 2 (takeSums_alike N) _ _ h2
/-! ### The polynomial handed to the sumcheck -/

/-- Two virtual polynomials differ in addresses only. -/
structure VpAlike (vp vp' : VirtPoly F) : Prop where
  degree : vp.maxDegree = vp'.maxDegree
  size : vp.numVariables = vp'.numVariables
  products : vp.products = vp'.products
  tables : vp.flat.map (·.mle) = vp'.flat.map (·.mle)

/-- Tables stored under the same identifier. -/
def Stored (t t' : PTracker F C) (a a' : ArcMle F) : Prop := ∃ id, t.mats.lookup id = some a ∧ t'.mats.lookup id = some a'

/-- The address tables of two virtual polynomials agree on what is stored. -/
def TablesAgree (t t' : PTracker F C) (vp vp' : VirtPoly F) : Prop := ∀ a a', Stored t t' a a' → vp.table.lookup a.ptr = vp'.table.lookup a'.ptr

section Sumcheck
variable {t t' : PTracker F C}

theorem stored_mle (h : SameContents t t') {a a' : ArcMle F} (hs : Stored t t' a a') : a.mle = a'.mle := by
  obtain ⟨id, h1, h2⟩ := hs
  rcases h.mat id with ⟨c1, _⟩ | ⟨_, _, c1, c2, hm⟩
  · rw [c1] at h1; cases h1
  · rw [c1] at h1; rw [c2] at h2; cases h1; cases h2; exact hm

theorem addLoop_alike (h : SameContents t t') : ∀ (l l' : List (ArcMle F)), List.Forall₂ (Stored t t') l l' → ∀ (acc : List Nat) (vp vp' : VirtPoly F),
    VpAlike vp vp' → TablesAgree t t' vp vp' →
    (VirtPoly.addLoop vp l acc).1 = (VirtPoly.addLoop vp' l' acc).1 ∧ VpAlike (VirtPoly.addLoop vp l acc).2 (VirtPoly.addLoop vp' l' acc).2 ∧
      TablesAgree t t' (VirtPoly.addLoop vp l acc).2 (VirtPoly.addLoop vp' l' acc).2 := by
  intro l l' hl
  induction hl with
  | nil => intro acc vp vp' hv ht; exact ⟨rfl, hv, ht⟩
  | @cons a a' l l' ha hl ih =>
    intro acc vp vp' hv ht
    unfold VirtPoly.addLoop
    rw [← stored_mle h ha, ← hv.size, ht a a' ha]
    by_cases hn : a.mle.numVars ≠ vp.numVariables
    · rw [if_pos hn, if_pos hn]
      exact ⟨rfl, hv, ht⟩
    · rw [if_neg hn, if_neg hn]
      have hlen : vp.flat.length = vp'.flat.length := by simpa using congrArg List.length hv.tables
      rcases vp'.table.lookup a'.ptr with _ | i
      · simp only
        rw [hlen]
        refine ih _ _ _ ⟨hv.degree, rfl, hv.products, ?_⟩ ?_
        · simp only [List.map_append, hv.tables, List.map_cons, stored_mle h ha, List.map_nil]
        · intro b b' hb
          simp only
          obtain ⟨i, a1, a2⟩ := ha
          have := ht b b' hb
          obtain ⟨j, b1, b2⟩ := hb
          have hs := h.shared i j a b a' b' a1 b1 a2 b2
          rw [lookup_cons_if, lookup_cons_if, this]
          by_cases e : b.ptr = a.ptr
          · rw [if_pos e, if_pos (hs.1 e.symm).symm]
          · rw [if_neg e, if_neg fun e' => e (hs.2 e'.symm).symm]
      · exact ih _ _ _ hv ht

theorem addMleList_alike (h : SameContents t t') {l l' : List (ArcMle F)} (hl : List.Forall₂ (Stored t t') l l') (c : F) {vp vp' : VirtPoly F}
    (hv : VpAlike vp vp') (ht : TablesAgree t t' vp vp') :
    (vp.addMleList l c).1 = (vp'.addMleList l' c).1 ∧ VpAlike (vp.addMleList l c).2 (vp'.addMleList l' c).2 ∧
      TablesAgree t t' (vp.addMleList l c).2 (vp'.addMleList l' c).2 := by
  unfold VirtPoly.addMleList
  have hlen := hl.length_eq
  by_cases e : l = []
  · have e' : l' = [] := List.eq_nil_of_length_eq_zero (by rw [← hlen, e]; rfl)
    rw [if_pos e, if_pos e']
    exact ⟨rfl, hv, ht⟩
  · have e' : l' ≠ [] := fun x => e (List.eq_nil_of_length_eq_zero (by rw [hlen, x]; rfl))
    rw [if_neg e, if_neg e']
    obtain ⟨h1, h2, h3⟩ := addLoop_alike h l l' hl [] { vp with maxDegree := max vp.maxDegree l.length } { vp' with maxDegree := max vp'.maxDegree l'.length }
      ⟨by rw [hv.degree, hlen], hv.size, hv.products, hv.tables⟩ ht
    rcases e1 : VirtPoly.addLoop { vp with maxDegree := max vp.maxDegree l.length } l [] with ⟨_ | _, w⟩ <;>
      rcases e2 : VirtPoly.addLoop { vp' with maxDegree := max vp'.maxDegree l'.length } l' [] with ⟨_ | _, w'⟩ <;> rw [e1, e2] at h1 h2 h3
    · exact ⟨by simpa using h1, h2, h3⟩
    · cases h1
    · cases h1
    · refine ⟨rfl, ⟨h2.degree, h2.size, ?_, h2.tables⟩, h3⟩
      simp only at h1 ⊢
      rw [h2.products, Except.ok.inj h1]

theorem members_alike (h : SameContents t t') : ∀ ids : List Nat,
    AgreeBy (List.Forall₂ (Stored t t')) (ids.mapM fun m => unwrap (t.mats.lookup m)) (ids.mapM fun m => unwrap (t'.mats.lookup m))
  | [] => List.Forall₂.nil
  | id :: ids => by
    rw [List.mapM_cons, List.mapM_cons]
    refine agreeBy_bind (R := Stored t t') ?_ fun a b hab => agreeBy_bind (members_alike h ids) fun l l' hl => List.Forall₂.cons hab hl
    rcases h.mat id with ⟨e1, e2⟩ | ⟨a, a', e1, e2, hm⟩
    · rw [e1, e2]; exact rfl
    · rw [e1, e2]; exact ⟨id, e1, e2⟩

theorem toArith_alike (h : SameContents t t') (id : Nat) : AgreeBy VpAlike (t.toArith id) (t'.toArith id) := by
  unfold PTracker.toArith
  rcases h.mat id with ⟨e1, e2⟩ | ⟨a, a', e1, e2, hm⟩
  · rw [e1, e2, h.virts.lookup id]
    rcases t'.virts.lookup id with _ | v
    · exact rfl
    · simp only
      rw [repNv_same h]
      rcases t'.repNv v with e | nv
      · exact rfl
      · simp only [ok_bind]
        suffices key : ∀ (v : VRep F) (vp vp' : VirtPoly F), VpAlike vp vp' → TablesAgree t t' vp vp' →
            AgreeBy (fun x y => VpAlike x y ∧ TablesAgree t t' x y)
              (v.foldlM (init := vp) fun vp q => do
                let l ← q.2.mapM fun m => unwrap (t.mats.lookup m)
                expectState (vp.addMleList l q.1))
              (v.foldlM (init := vp') fun vp q => do
                let l ← q.2.mapM fun m => unwrap (t'.mats.lookup m)
                expectState (vp.addMleList l q.1)) by
          have := key v (VirtPoly.new nv) (VirtPoly.new nv) ⟨rfl, rfl, rfl, rfl⟩ fun _ _ _ => rfl
          exact agreeBy_mono (fun _ _ h => h.1) this
        intro v
        induction v with
        | nil => intro vp vp' hv ht; exact ⟨hv, ht⟩
        | cons q v ih =>
          intro vp vp' hv ht
          rw [List.foldlM_cons, List.foldlM_cons]
          refine agreeBy_bind (R := fun x y => VpAlike x y ∧ TablesAgree t t' x y) ?_ fun x y hxy => ih x y hxy.1 hxy.2
          refine agreeBy_bind (members_alike h q.2) fun l l' hl => ?_
          obtain ⟨h1, h2, h3⟩ := addMleList_alike h hl q.1 hv ht
          rcases e1 : vp.addMleList l q.1 with ⟨_ | _, w⟩ <;> rcases e2 : vp'.addMleList l' q.1 with ⟨_ | _, w'⟩ <;> rw [e1, e2] at h1 h2 h3
          · exact rfl
          · cases h1
          · cases h1
          · exact ⟨h2, h3⟩
  · rw [e1, e2]
    exact ⟨rfl, by simp [VirtPoly.newFromMle, hm], rfl, by simp [VirtPoly.newFromMle, hm]⟩

end Sumcheck

/-- Two states of the sumcheck prover differ in addresses only. -/
def RoundAlike (s s' : ProverState F) : Prop :=
  s.challenges = s'.challenges ∧ s.round = s'.round ∧ s.extrapolationAux = s'.extrapolationAux ∧ VpAlike s.poly s'.poly

theorem setTables_alike {vp vp' : VirtPoly F} (h : VpAlike vp vp') (ts : List (Mle F)) : VpAlike (setTables vp ts) (setTables vp' ts) := by
  refine ⟨h.degree, h.size, h.products, ?_⟩
  have hlen : vp.flat.length = vp'.flat.length := by simpa using congrArg List.length h.tables
  have key : ∀ (l l' : List (ArcMle F)) (ts : List (Mle F)), l.length = l'.length →
      (List.zipWith (fun (a : ArcMle F) t => (⟨a.ptr, t⟩ : ArcMle F)) l ts).map (·.mle) = (List.zipWith (fun (a : ArcMle F) t => (⟨a.ptr, t⟩ : ArcMle F)) l' ts).map (·.mle) := by
    intro l
    induction l with
    | nil => intro l' ts e; rw [List.eq_nil_of_length_eq_zero e.symm]
    | cons a l ih =>
      intro l' ts e
      rcases l' with _ | ⟨a', l'⟩
      · simp at e
      · rcases ts with _ | ⟨x, ts⟩
        · rfl
        · simp only [List.zipWith_cons_cons, List.map_cons]
          rw [ih l' ts (by simpa using e)]
  exact key _ _ ts hlen

theorem takeChallenge_alike {s s' : ProverState F} (h : RoundAlike s s') (c : Option F) : takeChallenge s c = takeChallenge s' c := by
  obtain ⟨h1, h2, _, h4⟩ := h
  unfold takeChallenge
  have e : ∀ r : F, (s.poly.flat.mapM fun a => fixVariables a.mle [r] : Res (List (Mle F))) = s'.poly.flat.mapM fun a => fixVariables a.mle [r] := by
    intro r
    have := congrArg (fun l => (l.mapM (fun m : Mle F => fixVariables m [r]) : Res (List (Mle F)))) h4.tables
    simp only [List.mapM_map] at this
    exact this
  rw [h1, h2]
  rcases c with _ | c
  · simp only [h4.tables]
  · simp only [e]

theorem proveRound_alike {s s' : ProverState F} (h : RoundAlike s s') (c : Option F) :
    AgreeBy (fun x y => x.1 = y.1 ∧ RoundAlike x.2 y.2) (proveRound s c) (proveRound s' c) := by
  have ht := takeChallenge_alike h c
  obtain ⟨h1, h2, h3, h4⟩ := h
  unfold proveRound
  rw [ht, h2, h3, h4.size, h4.degree, h4.products]
  by_cases e : s'.poly.numVariables ≤ s'.round
  · rw [if_pos e, if_pos e]; exact rfl
  · rw [if_neg e, if_neg e]
    refine agreeBy_bindE rfl fun x => ?_
    obtain ⟨chals, tables⟩ := x
    refine agreeBy_bindE rfl fun msg => ?_
    exact ⟨rfl, rfl, rfl, rfl, setTables_alike h4 tables⟩

theorem proveLoop_alike (H : Oracle F C) : ∀ (n : Nat) {s s' : ProverState F} (_ : RoundAlike s s') (c : Option F) (tr : Transcript F C),
    AgreeBy (fun x y => x.1 = y.1 ∧ RoundAlike x.2.1 y.2.1 ∧ x.2.2 = y.2.2) (proveLoop H n s c tr) (proveLoop H n s' c tr)
  | 0, s, s', h, c, tr => ⟨rfl, h, rfl⟩
  | n + 1, s, s', h, c, tr => by
    unfold proveLoop
    refine agreeBy_bind (proveRound_alike h c) fun x y hxy => ?_
    obtain ⟨msg, w⟩ := x
    obtain ⟨msg', w'⟩ := y
    obtain ⟨e, hw⟩ := hxy
    simp only at e hw ⊢
    subst e
    refine agreeBy_bindE rfl fun z => ?_
    obtain ⟨ch, tr'⟩ := z
    refine agreeBy_bind (proveLoop_alike H n hw (some ch) tr') fun p q hpq => ?_
    obtain ⟨ms, v, cc, tt⟩ := p
    obtain ⟨ms', v', cc', tt'⟩ := q
    obtain ⟨e1, e2, e3⟩ := hpq
    simp only at e1 e2 e3
    exact ⟨by simp [e1], e2, by simpa using e3⟩

/-- The sumcheck prover does not see addresses. -/
theorem sumcheckProve_alike (H : Oracle F C) {vp vp' : VirtPoly F} (h : VpAlike vp vp') (tr : Transcript F C) : sumcheckProve H vp tr = sumcheckProve H vp' tr := by
  rw [← agreeBy_eq]
  unfold sumcheckProve proverInit
  rw [← h.degree, ← h.size]
  by_cases e : vp.numVariables = 0
  · simp only [if_pos e, error_bind]; exact rfl
  · simp only [if_neg e, ok_bind]
    refine agreeBy_bind (proveLoop_alike H vp.numVariables (s := ⟨[], 0, vp, _⟩) (s' := ⟨[], 0, vp', _⟩) ⟨rfl, rfl, rfl, h⟩ none _) fun p q hpq => ?_
    obtain ⟨ms, v, cc, tt⟩ := p
    obtain ⟨ms', v', cc', tt'⟩ := q
    obtain ⟨e1, e2, e3⟩ := hpq
    simp only at e1 e2 e3
    obtain ⟨rfl, rfl⟩ := Prod.mk.inj e3
    subst e1
    simp only [AgreeBy, e2.1]

theorem proveTrail_alike (H : Oracle F C) : ∀ (n : Nat) {s s' : ProverState F} (_ : RoundAlike s s') (c : Option F) (tr : Transcript F C),
    proveTrail H n s c tr = proveTrail H n s' c tr
  | 0, _, _, _, _, _ => rfl
  | n + 1, s, s', h, c, tr => by
    have hr := proveRound_alike h c
    unfold proveTrail
    rcases e1 : proveRound s c with e | ⟨msg, w⟩ <;> rcases e2 : proveRound s' c with e' | ⟨msg', w'⟩ <;> rw [e1, e2] at hr
    · exact False.elim hr
    · exact False.elim hr
    · obtain ⟨k, hw⟩ := hr
      simp only at k hw ⊢
      subst k
      rcases (tr.append "prover msg" (.elems msg)).challenge H "Internal round" with e | ⟨ch, tr'⟩
      · rfl
      · exact proveTrail_alike H n hw (some ch) tr'

theorem sumcheckProveTrail_alike (H : Oracle F C) {vp vp' : VirtPoly F} (h : VpAlike vp vp') (tr : Transcript F C) :
    sumcheckProveTrail H vp tr = sumcheckProveTrail H vp' tr := by
  unfold sumcheckProveTrail proverInit
  rw [← h.degree, ← h.size]
  by_cases e : vp.numVariables = 0
  · simp only [if_pos e]
  · simp only [if_neg e]
    exact proveTrail_alike H vp.numVariables (s := ⟨[], 0, vp, _⟩) (s' := ⟨[], 0, vp', _⟩) ⟨rfl, rfl, rfl, h⟩ none _

theorem foldZeroClaims_alike (H : Oracle F C) : ∀ (cs : List Nat) (agg : Nat),
    Alike (F := F) (C := C) (· = ·) (PTracker.foldZeroClaims H cs agg) (PTracker.foldZeroClaims H cs agg)
  | [], agg => Alike.pure rfl
  | c :: cs, agg => by
    unfold PTracker.foldZeroClaims
    refine (challenge_alike H _).expect.bindE fun ch => ?_
    refine (mulScalar_alike c ch).bindE fun p => ?_
    exact (addSubPolys_alike agg p false).bindE fun agg' => foldZeroClaims_alike H cs agg'

theorem foldSumClaims_alike (H : Oracle F C) : ∀ (cs : List (Nat × F)) (agg : Nat) (s : F),
    Alike (F := F) (C := C) (· = ·) (PTracker.foldSumClaims H cs agg s) (PTracker.foldSumClaims H cs agg s)
  | [], agg, s => Alike.pure rfl
  | c :: cs, agg, s => by
    unfold PTracker.foldSumClaims
    refine (challenge_alike H _).expect.bindE fun ch => ?_
    refine (mulScalar_alike c.1 ch).bindE fun p => ?_
    exact (addSubPolys_alike agg p false).bindE fun agg' => foldSumClaims_alike H cs agg' _

theorem convertZero_alike (H : Oracle F C) (nv : Nat) : Alike (F := F) (C := C) (· = ·) (PTracker.convertZero H nv) (PTracker.convertZero H nv) := by
  unfold PTracker.convertZero
  refine (Alike.lift _).bindE fun z => (trackMat_alike z).bindE fun agg0 => ?_
  refine (Alike.readsE fun t t' h => by rw [h.zeros]).bindE fun claims => ?_
  refine (foldZeroClaims_alike H claims agg0).bindE fun agg => ?_
  refine (challengesU_alike H _ nv).bindE fun r => ?_
  refine (Alike.lift _).expect.bindE fun e => ?_
  exact (trackMat_alike e).bindE fun eqId => (mulPolys_alike agg eqId).bindE fun p => addSumClaim_alike p 0

theorem debugCheck_alike [DecidableEq F] (debug : Bool) (agg : Nat × F) : Alike (F := F) (C := C) (· = ·) (debugCheck debug agg) (debugCheck debug agg) := by
  unfold debugCheck
  split_ifs
  · exact (evaluations_alike agg.1).bindE fun e => Alike.lift _
  · exact Alike.pure rfl

theorem proveSumcheck_alike (H : Oracle F C) {vp vp' : VirtPoly F} (hv : VpAlike vp vp') : Alike (F := F) (C := C) (· = ·) (proveSumcheck H vp) (proveSumcheck H vp') := by
  intro t t' h
  unfold proveSumcheck
  rw [← h.transcript, sumcheckProve_alike H hv]
  rcases sumcheckProve H vp' t.transcript with e | ⟨pf, tr⟩
  · exact ⟨rfl, by rw [sumcheckProveTrail_alike H hv]; exact appendTr_same h _⟩
  · exact ⟨rfl, appendTr_same h tr⟩

theorem openBatch_alike (pcs : Pcs F C B) (polys : List (Mle F)) (points : List (List F)) (evals : List F) :
    Alike (F := F) (C := C) (· = ·) (openBatch pcs polys points evals) (openBatch pcs polys points evals) := by
  intro t t' h
  unfold openBatch
  rw [← h.transcript]
  rcases pcs.multiOpen polys points evals t.transcript with (_ | _) | ⟨pf, tr⟩
  · exact ⟨rfl, appendTr_same h _⟩
  · exact ⟨rfl, appendTr_same h _⟩
  · exact ⟨rfl, appendTr_same h tr⟩

theorem claimMap_once (cs : List (Nat × F)) : SameMap (claimMap cs) (claimMap cs) := by
  have : ∀ (cs m : List (Nat × F)), (m.map (·.1)).Nodup → ((cs.foldl (fun m c => amInsert c.1 c.2 m) m).map (·.1)).Nodup := by
    intro cs
    induction cs with
    | nil => intro m h; exact h
    | cons c cs ih => intro m h; exact ih _ (keys_amInsert _ _ _ h)
  exact ⟨this cs [] (by simp), this cs [] (by simp), fun _ => rfl⟩

theorem compile_alike [DecidableEq F] {d : Nat → PTracker F C → PTracker F C} (hd : Rearranges d) (debug : Bool) (pcs : Pcs F C B) (H : Oracle F C) :
    Alike SameProof (compile debug pcs H) (compileRearranged d debug pcs H) := by
  have flat : compile debug pcs H = (do
      let nv ← equalize
      PTracker.convertZero H nv
      let z ← Act.lift (zeroMle nv)
      let agg0 ← PTracker.trackMat z
      let claims ← Act.reads fun t => .ok t.sumClaims
      let agg ← PTracker.foldSumClaims H claims agg0 0
      debugCheck debug agg
      let vp ← Act.reads fun t => t.toArith agg.1
      let pf ← proveSumcheck H vp
      let ids ← Act.reads fun t => .ok (sortedIds t.comms)
      let polys ← Act.reads fun t => ids.mapM fun id => do
        let a ← unwrap (t.mats.lookup id)
        .ok a.mle
      let evals ← Act.lift (polys.mapM fun p => unwrap (p.evaluate pf.point))
      let bp ← openBatch pcs polys (ids.map fun _ => pf.point) evals
      Act.reads fun t => .ok
        { comms := t.comms
          sumcheckClaims := claimMap t.sumClaims
          scProof := pf
          scMaxDegree := vp.maxDegree
          scNumVars := vp.numVariables
          queryMap := ids.map fun id => ((id, pf.point), 0)
          pcsProof := [bp] } : Act (PTracker F C) (CompiledProof F C B)) := by
    unfold compile PTracker.aggregate
    simp only [Act.bind_assoc]
  rw [flat]
  unfold compileRearranged
  refine (equalize_alike hd).bindE fun nv => ?_
  refine Alike.moved hd 3 ((convertZero_alike H nv).bindE fun _ => ?_)
  refine Alike.moved hd 4 ((Alike.lift _).bindE fun z => ?_)
  refine (trackMat_alike z).bindE fun agg0 => ?_
  refine (Alike.readsE fun t t' h => by rw [h.sums]).bindE fun claims => ?_
  refine (foldSumClaims_alike H claims agg0 0).bindE fun agg => ?_
  refine Alike.moved hd 5 ((debugCheck_alike debug agg).bindE fun _ => ?_)
  refine Alike.moved hd 6 ((Alike.reads fun t t' h => toArith_alike h agg.1).bind fun vp vp' hv => ?_)
  refine (proveSumcheck_alike H hv).bindE fun pf => ?_
  refine Alike.moved hd 7 (Alike.bind (R := fun a b : List Nat => a = b ∧ a.Nodup) (Alike.reads fun t t' h => ?_) ?_)
  · refine ⟨sortedIds_same h.comms, ?_⟩
    unfold sortedIds
    exact (List.perm_insertionSort (· ≤ ·) _).nodup_iff.2 h.comms.once
  rintro ids _ ⟨rfl, hn⟩
  refine Alike.moved hd 8 (Alike.bindE (Alike.readsE fun t t' h => ?_) fun polys => ?_)
  · have : (fun id => unwrap (t.mats.lookup id) >>= fun a => (Except.ok a.mle : Res (Mle F))) =
        fun id => unwrap (t'.mats.lookup id) >>= fun a => (Except.ok a.mle : Res (Mle F)) :=
      funext fun id => evalsAt_same h (fun m => .ok m) id
    rw [this]
  refine (Alike.lift _).bindE fun evals => ?_
  refine (openBatch_alike pcs polys _ evals).bindE fun bp => ?_
  refine Alike.moved hd 9 (Alike.reads fun t t' h => ?_)
  refine ⟨h.comms, ?_, ⟨?_, ?_, fun _ => rfl⟩, rfl, hv.degree, hv.size, rfl⟩
  · simp only [h.sums]
    exact claimMap_once _
  · simp only [List.map_map, Function.comp_def]
    exact hn.map fun a b e => (Prod.mk.inj e).1
  · simp only [List.map_map, Function.comp_def]
    exact hn.map fun a b e => (Prod.mk.inj e).1

end Zksql
