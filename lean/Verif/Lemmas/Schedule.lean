import Verif.Model.Schedule
import Mathlib.Data.List.Nodup
/-!
Lemmas on computations shared by several threads.
-/
namespace Zksql
variable {F C B α β γ : Type}

namespace Outcomes

theorem of_ok_bind (a : α) (f : α → Outcomes β) : (of (.ok a) >>= f) = f a := by
  funext x
  apply propext
  constructor
  · rintro (⟨a', h, k⟩ | ⟨e, h, -⟩)
    · cases h; exact k
    · cases h
  · intro k; exact Or.inl ⟨a, rfl, k⟩

theorem of_error_bind (e : Fail) (f : α → Outcomes β) : (of (.error e) >>= f) = of (.error e) := by
  funext x
  apply propext
  constructor
  · rintro (⟨a', h, k⟩ | ⟨e', h, k⟩)
    · cases h
    · cases h; exact k
  · intro k; exact Or.inr ⟨e, rfl, k⟩

theorem pure_eq (a : α) : (pure a : Outcomes α) = of (.ok a) := rfl

/-- Code with one outcome after code with one outcome. -/
theorem of_bind {r : Res α} {f : α → Outcomes β} {g : α → Res β} (h : ∀ a, r = .ok a → f a = of (g a)) :
    (of r >>= f) = of (r >>= g) := by
  cases r with
  | ok a => rw [of_ok_bind, h a rfl]; rfl
  | error e => rw [of_error_bind]; rfl

theorem bind_ok {m : Outcomes α} {f : α → Outcomes β} {b : β} : (m >>= f) (.ok b) ↔ ∃ a, m (.ok a) ∧ f a (.ok b) := by
  constructor
  · rintro (h | ⟨e, -, h⟩)
    · exact h
    · cases h
  · exact Or.inl

theorem of_apply {r x : Res α} : of r x ↔ x = r := Iff.rfl

end Outcomes

/-! ## Code that only panics -/

/-- The only failure is a panic. -/
def PanicOnly (r : Res α) : Prop := ∀ k, r ≠ .error (.err k)

theorem panicOnly_ok (a : α) : PanicOnly (.ok a : Res α) := by intro k h; cases h
theorem panicOnly_panic : PanicOnly (.error .panic : Res α) := by intro k h; cases h

theorem PanicOnly.bind {r : Res α} {f : α → Res β} (h : PanicOnly r) (hf : ∀ a, PanicOnly (f a)) :
    PanicOnly (r >>= f) := by
  cases r with
  | ok a => exact hf a
  | error e =>
    intro k hk
    cases e with
    | err k' => exact h k' rfl
    | panic => cases hk

theorem PanicOnly.map {r : Res α} (f : α → β) (h : PanicOnly r) : PanicOnly (r.map f) := by
  cases r with
  | ok a => exact panicOnly_ok _
  | error e =>
    intro k hk
    cases e with
    | err k' => exact h k' rfl
    | panic => cases hk

theorem panicOnly_unwrap (o : Option α) : PanicOnly (unwrap o) := by
  cases o
  · exact panicOnly_panic
  · exact panicOnly_ok _

theorem panicOnly_idx (l : List α) (i : Nat) : PanicOnly (idx l i) := panicOnly_unwrap _

theorem PanicOnly.error {r : Res α} {e : Fail} (h : PanicOnly r) (he : r = .error e) : r = .error .panic := by
  cases e with
  | err k => exact absurd he (h k)
  | panic => exact he

theorem panicOnly_mapM (f : α → Res β) (h : ∀ a, PanicOnly (f a)) : ∀ l : List α, PanicOnly (l.mapM f)
  | [] => panicOnly_ok _
  | a :: l => by
    rw [List.mapM_cons]
    exact (h a).bind fun b => (panicOnly_mapM f h l).bind fun bs => panicOnly_ok _

/-! ## Going through a list -/

theorem sch_bind_inv {r : Res α} {f : α → Res β} {b : β} (h : (r >>= f) = .ok b) : ∃ a, r = .ok a ∧ f a = .ok b := by
  cases r with
  | ok a => exact ⟨a, rfl, h⟩
  | error e => cases h

theorem sch_mapM_ok {f : α → Res β} {v : α → β} : ∀ {l : List α}, (∀ a ∈ l, f a = .ok (v a)) → l.mapM f = .ok (l.map v)
  | [], _ => rfl
  | a :: l, h => by
    rw [List.mapM_cons, h a (by simp), sch_mapM_ok fun b hb => h b (by simp [hb])]
    rfl

theorem sch_mapM_panic {f : α → Res β} (h : ∀ a, PanicOnly (f a)) : ∀ {l : List α} {a : α}, a ∈ l → f a = .error .panic →
    l.mapM f = .error .panic
  | b :: l, a, ha, hf => by
    rw [List.mapM_cons]
    rcases e : f b with e1 | v
    · have := (h b).error e
      rw [e] at this
      rw [this]; rfl
    · have hne : a ≠ b := by rintro rfl; rw [hf] at e; cases e
      rw [sch_mapM_panic h ((List.mem_cons.1 ha).resolve_left hne) hf]
      rfl

/-- Either every item succeeds, or one panics. -/
theorem sch_all_or {f : α → Res β} (h : ∀ a, PanicOnly (f a)) (l : List α) :
    (∀ a ∈ l, ∃ b, f a = .ok b) ∨ ∃ a ∈ l, f a = .error .panic := by
  by_cases hx : ∃ a ∈ l, f a = .error .panic
  · exact Or.inr hx
  · refine Or.inl fun a ha => ?_
    rcases e : f a with e1 | v
    · exact absurd ⟨a, ha, (h a).error e⟩ hx
    · exact ⟨v, rfl⟩

namespace Par

/-! ## Cells written in any order -/

theorem idx_lt {l : List α} {i : Nat} (h : i < l.length) : idx l i = .ok l[i] := by
  simp [idx, List.getElem?_eq_getElem h]

theorem runWrites_ok {g : Nat → β → Res β} (v : Nat → β) : ∀ {order : List Nat} {cells : List β}, order.Nodup →
    (∀ i ∈ order, ∃ h : i < cells.length, g i cells[i] = .ok (v i)) →
    runWrites g order cells = .ok ((List.range cells.length).zipWith (fun i c => if i ∈ order then v i else c) cells)
  | [], cells, _, _ => by
    simp only [runWrites, List.not_mem_nil, if_false]
    congr 1
    apply List.ext_getElem <;> simp
  | i :: is, cells, hn, h => by
    obtain ⟨hi, hg⟩ := h i (by simp)
    rw [runWrites, idx_lt hi, ok_bind, hg, ok_bind, runWrites_ok v (List.nodup_cons.1 hn).2]
    · congr 1
      apply List.ext_getElem
      · simp
      · intro j hj _
        simp only [List.length_zipWith, List.length_range, List.length_set, Nat.min_self] at hj
        simp only [List.getElem_zipWith, List.getElem_range, List.mem_cons, List.getElem_set]
        by_cases hji : i = j
        · subst hji
          simp [(List.nodup_cons.1 hn).1]
        · simp [Ne.symm hji, hji]
    · intro j hj
      obtain ⟨hjl, hgj⟩ := h j (by simp [hj])
      have hne : i ≠ j := by rintro rfl; exact (List.nodup_cons.1 hn).1 hj
      refine ⟨by simpa using hjl, ?_⟩
      rw [List.getElem_set_ne hne]
      exact hgj

theorem runWrites_panic {g : Nat → β → Res β} (hp : ∀ i c, PanicOnly (g i c)) : ∀ {order : List Nat} {cells : List β}, order.Nodup →
    (∀ i ∈ order, i < cells.length) → ∀ {i : Nat}, i ∈ order → ∀ h : i < cells.length, g i cells[i] = .error .panic →
    runWrites g order cells = .error .panic
  | j :: is, cells, hn, hl, i, hi, hlt, hg => by
    have hj := hl j (by simp)
    rw [runWrites, idx_lt hj, ok_bind]
    rcases e : g j cells[j] with e1 | v
    · have := (hp _ _).error e
      rw [e] at this
      rw [this]; rfl
    · have hne : j ≠ i := by rintro rfl; rw [hg] at e; cases e
      rw [ok_bind]
      have hlt' : i < (cells.set j v).length := by simpa using hlt
      refine runWrites_panic hp (List.nodup_cons.1 hn).2 (fun k hk => by simpa using hl k (by simp [hk]))
        ((List.mem_cons.1 hi).resolve_left (Ne.symm hne)) hlt' ?_
      rw [List.getElem_set_ne hne]
      exact hg

/-- What `par_iter_mut().enumerate().for_each(..)` comes to. -/
theorem updateAll_eq {g : Nat → β → Res β} (hp : ∀ i c, PanicOnly (g i c)) (cells : List β) :
    updateAll g cells = Outcomes.of ((List.range cells.length).mapM fun i => idx cells i >>= g i) := by
  have hp' : ∀ i, PanicOnly (idx cells i >>= g i) := fun i => (panicOnly_idx _ _).bind fun c => hp i c
  have key : ∀ order : List Nat, order.Perm (List.range cells.length) →
      runWrites g order cells = (List.range cells.length).mapM fun i => idx cells i >>= g i := by
    intro order ho
    have hn : order.Nodup := ho.nodup_iff.2 List.nodup_range
    have hl : ∀ i ∈ order, i < cells.length := fun i hi => List.mem_range.1 (ho.mem_iff.1 hi)
    rcases sch_all_or hp' (List.range cells.length) with hall | ⟨i, hi, hf⟩
    · rcases Nat.eq_zero_or_pos cells.length with h0 | h0
      · obtain rfl := List.length_eq_zero_iff.1 h0
        have : order = [] := by simpa using ho
        subst this
        rfl
      · haveI : Nonempty β := ⟨cells[0]⟩
        choose! v hv using hall
        have hv' : ∀ i (h : i < cells.length), g i cells[i] = .ok (v i) := by
          intro i h
          have := hv i (List.mem_range.2 h)
          rwa [idx_lt h, ok_bind] at this
        rw [runWrites_ok v hn fun i hi => ⟨hl i hi, hv' i (hl i hi)⟩, sch_mapM_ok hv]
        congr 1
        apply List.ext_getElem
        · simp
        · intro j hj _
          simp only [List.length_zipWith, List.length_range, Nat.min_self] at hj
          simp [ho.mem_iff, hj]
    · have hlt := List.mem_range.1 hi
      rw [idx_lt hlt, ok_bind] at hf
      rw [runWrites_panic hp hn hl (ho.mem_iff.2 hi) hlt hf]
      refine (sch_mapM_panic hp' hi ?_).symm
      rw [idx_lt hlt, ok_bind, hf]
  funext x
  apply propext
  constructor
  · rintro ⟨order, ho, rfl⟩
    exact key order ho
  · intro hx
    exact ⟨_, List.Perm.refl _, hx.trans (key _ (List.Perm.refl _)).symm⟩

/-- Cells that are written without being read, by code that cannot fail. -/
theorem updateAll_replicate (n : Nat) (z : β) (v : Nat → β) :
    updateAll (fun i _ => .ok (v i)) (List.replicate n z) = Outcomes.of (.ok ((List.range n).map v)) := by
  rw [updateAll_eq fun _ _ => panicOnly_ok _, List.length_replicate, sch_mapM_ok (v := v)]
  intro i hi
  rw [idx_lt (by simpa using hi)]
  rfl

theorem mapM_unwrap_some (l : List β) : (l.map some).mapM unwrap = .ok l := by
  induction l with
  | nil => rfl
  | cons a l ih => rw [List.map_cons, List.mapM_cons, ih]; rfl

/-- What `.map(f).collect()` comes to. -/
theorem collectAll_eq {f : Nat → Res β} (hp : ∀ i, PanicOnly (f i)) (n : Nat) :
    collectAll n f = Outcomes.of ((List.range n).mapM f) := by
  unfold collectAll
  rw [updateAll_eq fun i _ => (hp i).map some]
  have e : ((List.range (List.replicate n (none : Option β)).length).mapM fun i =>
      idx (List.replicate n (none : Option β)) i >>= fun _ => (f i).map some) = (List.range n).mapM fun i => (f i).map some := by
    rw [List.length_replicate]
    have : ∀ l : List Nat, (∀ i ∈ l, i < n) → (l.mapM fun i =>
      idx (List.replicate n (none : Option β)) i >>= fun _ => (f i).map some) = l.mapM fun i => (f i).map some := by
      intro l hl
      induction l with
      | nil => rfl
      | cons a l ih =>
        rw [List.mapM_cons, List.mapM_cons, ih fun i hi => hl i (by simp [hi]), idx_lt (by simpa using hl a (by simp))]
        rfl
    exact this _ fun i hi => List.mem_range.1 hi
  rw [e]
  have e2 : ∀ l : List Nat, (l.mapM fun i => (f i).map some) = (l.mapM f).map (·.map some) := by
    intro l
    induction l with
    | nil => rfl
    | cons a l ih =>
      rw [List.mapM_cons, List.mapM_cons, ih]
      cases f a with
      | error e => rfl
      | ok b => cases l.mapM f <;> rfl
  rw [e2]
  rcases h : (List.range n).mapM f with e1 | l
  · exact Outcomes.of_error_bind _ _
  · exact (Outcomes.of_ok_bind _ _).trans (by rw [mapM_unwrap_some])

theorem mapM_idx (l : List β) : (List.range l.length).mapM (idx l) = .ok l := by
  rcases Nat.eq_zero_or_pos l.length with h0 | h0
  · obtain rfl := List.length_eq_zero_iff.1 h0
    rfl
  · rw [sch_mapM_ok (v := fun i => l.getD i l[0])]
    · congr 1
      apply List.ext_getElem
      · simp
      · intro j hj _
        simp only [List.length_map, List.length_range] at hj
        simp [List.getD_eq_getElem?_getD, hj]
    · intro i hi
      have := List.mem_range.1 hi
      simp [idx_lt this, List.getD_eq_getElem?_getD, this]

/-- Going through the indices is going through the list. -/
theorem mapM_range_idx (l : List α) (f : α → Res β) :
    ((List.range l.length).mapM fun i => idx l i >>= f) = l.mapM f := by
  induction l with
  | nil => rfl
  | cons a l ih =>
    rw [List.length_cons, List.range_succ_eq_map, List.mapM_cons, List.mapM_cons, List.mapM_map]
    have : (List.mapM ((fun i => idx (a :: l) i >>= f) ∘ Nat.succ) (List.range l.length)) = l.mapM f := by
      rw [← ih]; rfl
    rw [this]
    rfl

/-! ## Sums in any division -/

variable [Field F]

theorem fillBuf_eq (tables : List (Mle F)) (b : Nat) : ∀ (buf : List (F × F)) (p : List Nat), buf.length = p.length →
    fillBuf tables b buf p = roundBuf tables p b
  | [], [], _ => rfl
  | _ :: buf, f :: p, h => by
    have ih := fillBuf_eq tables b buf p (by simpa using h)
    unfold roundBuf at ih ⊢
    rw [fillBuf, List.mapM_cons, ih]
    rcases idx tables f with e | t
    · rfl
    · rw [ok_bind, ok_bind]
      rcases idx t.evals (2 * b) with e | e0
      · rfl
      · rw [ok_bind, ok_bind]
        rcases idx t.evals (2 * b + 1) with e | e1 <;> rfl

theorem roundBuf_length {tables : List (Mle F)} {b : Nat} : ∀ {p : List Nat} {buf : List (F × F)},
    roundBuf tables p b = .ok buf → buf.length = p.length
  | [], buf, h => by cases h; rfl
  | f :: p, buf, h => by
    unfold roundBuf at h
    rw [List.mapM_cons] at h
    obtain ⟨x, -, h⟩ := sch_bind_inv h
    obtain ⟨xs, h1, h⟩ := sch_bind_inv h
    cases h
    simpa using roundBuf_length h1

theorem panicOnly_roundBuf (tables : List (Mle F)) (p : List Nat) (b : Nat) : PanicOnly (roundBuf tables p b) :=
  panicOnly_mapM _ (fun _ => (panicOnly_idx _ _).bind fun _ => (panicOnly_idx _ _).bind fun _ =>
    (panicOnly_idx _ _).bind fun _ => panicOnly_ok _) _

theorem stepBuf_length : ∀ (k : Nat) (buf : List (F × F)), (stepBuf k buf).length = buf.length
  | 0, _ => rfl
  | k + 1, buf => by rw [stepBuf, stepBuf_length k]; simp

theorem stepEvals_len : ∀ (k : Nat) (buf : List (F × F)), (stepEvals k buf).length = k + 1
  | 0, _ => rfl
  | k + 1, buf => by rw [stepEvals, List.length_cons, stepEvals_len k]

/-- The fold on one thread. -/
def seqSum (tables : List (Mle F)) (p : List Nat) (acc : List F) (xs : List Nat) : Res (List F) :=
  xs.foldlM (init := acc) fun acc b => do
    let buf ← roundBuf tables p b
    .ok (List.zipWith (· + ·) acc (stepEvals p.length buf))

theorem seqSum_cons (tables : List (Mle F)) (p : List Nat) (acc : List F) (b : Nat) (xs : List Nat) :
    seqSum tables p acc (b :: xs) = roundBuf tables p b >>= fun buf =>
      seqSum tables p (List.zipWith (· + ·) acc (stepEvals p.length buf)) xs := by
  rw [seqSum, List.foldlM_cons]
  cases roundBuf tables p b <;> rfl

theorem panicOnly_seqSum (tables : List (Mle F)) (p : List Nat) : ∀ (xs : List Nat) (acc : List F), PanicOnly (seqSum tables p acc xs)
  | [], acc => panicOnly_ok _
  | b :: xs, acc => by
    rw [seqSum_cons]
    exact (panicOnly_roundBuf _ _ _).bind fun _ => panicOnly_seqSum tables p xs _

theorem seqSum_length {tables : List (Mle F)} {p : List Nat} : ∀ {xs : List Nat} {acc out : List F}, acc.length = p.length + 1 →
    seqSum tables p acc xs = .ok out → out.length = p.length + 1
  | [], acc, out, ha, h => by cases h; exact ha
  | b :: xs, acc, out, ha, h => by
    rw [seqSum_cons] at h
    obtain ⟨buf, -, h⟩ := sch_bind_inv h
    exact seqSum_length (by simp [ha, stepEvals_len]) h

theorem zipWith_add_assoc : ∀ a b c : List F, List.zipWith (· + ·) (List.zipWith (· + ·) a b) c =
    List.zipWith (· + ·) a (List.zipWith (· + ·) b c)
  | [], _, _ => by simp
  | _ :: _, [], _ => by simp
  | _ :: _, _ :: _, [] => by simp
  | a :: as, b :: bs, c :: cs => by simp [add_assoc, zipWith_add_assoc as bs cs]

theorem zipWith_add_zeros : ∀ (a : List F), List.zipWith (· + ·) a (List.replicate a.length 0) = a
  | [] => rfl
  | a :: as => by simp [List.replicate_succ, zipWith_add_zeros as]

theorem zipWith_zeros_add : ∀ (a : List F), List.zipWith (· + ·) (List.replicate a.length 0) a = a
  | [] => rfl
  | a :: as => by simp [List.replicate_succ, zipWith_zeros_add as]

theorem seqSum_shift (tables : List (Mle F)) (p : List Nat) (a : List F) : ∀ (xs : List Nat) (acc : List F),
    seqSum tables p (List.zipWith (· + ·) a acc) xs = (seqSum tables p acc xs).map (List.zipWith (· + ·) a)
  | [], _ => rfl
  | b :: xs, acc => by
    rw [seqSum_cons, seqSum_cons]
    rcases roundBuf tables p b with e | buf
    · rfl
    · rw [ok_bind, ok_bind, zipWith_add_assoc, seqSum_shift tables p a xs]

theorem leaf_eq (tables : List (Mle F)) (p : List Nat) : ∀ (xs : List Nat) (buf : List (F × F)) (acc : List F), buf.length = p.length →
    (xs.foldlM (sumStep tables p) (buf, acc)).map (·.2) = seqSum tables p acc xs
  | [], _, _, _ => rfl
  | b :: xs, buf, acc, h => by
    rw [List.foldlM_cons, seqSum_cons, sumStep, fillBuf_eq _ _ _ _ h]
    rcases e : roundBuf tables p b with e1 | bf
    · rfl
    · exact leaf_eq tables p xs _ _ (by rw [stepBuf_length, roundBuf_length e])

theorem foldReduce_eq (tables : List (Mle F)) (p : List Nat) : ∀ (s : Split) (xs : List Nat),
    foldReduce (List.replicate p.length ((0 : F), (0 : F)), List.replicate (p.length + 1) (0 : F)) (sumStep tables p)
      (·.2) (List.replicate (p.length + 1) (0 : F)) (List.zipWith (· + ·)) s xs
    = seqSum tables p (List.replicate (p.length + 1) 0) xs
  | .leaf, xs => by
    rw [foldReduce]
    have h := leaf_eq tables p xs (List.replicate p.length ((0 : F), (0 : F))) (List.replicate (p.length + 1) (0 : F)) (by simp)
    rcases e : xs.foldlM (sumStep tables p) (List.replicate p.length ((0 : F), (0 : F)), List.replicate (p.length + 1) (0 : F)) with
      e1 | b
    · rw [e] at h
      exact h
    · rw [e] at h
      have hl := seqSum_length (by simp) h.symm
      rw [← h]
      change Except.ok _ = Except.ok _
      rw [← hl, zipWith_zeros_add]
  | .node k l r, xs => by
    rw [foldReduce, foldReduce_eq tables p l, foldReduce_eq tables p r]
    have hx : seqSum tables p (List.replicate (p.length + 1) 0) xs
        = seqSum tables p (List.replicate (p.length + 1) 0) (xs.take k) >>= fun a => seqSum tables p a (xs.drop k) := by
      conv_lhs => rw [← List.take_append_drop k xs]
      unfold seqSum
      rw [List.foldlM_append]
    rw [hx]
    rcases e : seqSum tables p (List.replicate (p.length + 1) 0) (xs.take k) with e1 | a
    · have := (panicOnly_seqSum _ _ _ _).error e
      rw [e] at this
      cases this
      rfl
    · have ha := seqSum_length (by simp) e
      have hs := seqSum_shift tables p a (xs.drop k) (List.replicate (p.length + 1) 0)
      rw [← ha, zipWith_add_zeros, ha] at hs
      rw [ok_bind, hs]
      rcases e' : seqSum tables p (List.replicate (p.length + 1) 0) (xs.drop k) with e1 | b
      · have := (panicOnly_seqSum _ _ _ _).error e'
        rw [e'] at this
        cases this
        rfl
      · rfl

theorem productSum_eq (tables : List (Mle F)) (p : List Nat) (nb : Nat) :
    productSum tables p nb = Outcomes.of (Zksql.productSum tables p nb) := by
  funext x
  apply propext
  constructor
  · rintro ⟨s, rfl⟩
    exact foldReduce_eq tables p s _
  · intro hx
    exact ⟨.leaf, hx.trans (foldReduce_eq tables p .leaf _).symm⟩

/-! ## Tables -/

theorem fixOne_eq (data : List F) (nv : Nat) (r : F) : fixOne data nv r = Outcomes.of (.ok (fixOnePar data nv r)) :=
  updateAll_replicate _ _ _

theorem fixLastOne_eq (data : List F) (nv : Nat) (r : F) : fixLastOne data nv r = Outcomes.of (.ok (Zksql.fixLastOne data nv r)) :=
  updateAll_replicate _ _ _

theorem fixLoop_eq : ∀ (pt data : List F) (nv : Nat), fixLoop data nv pt = Outcomes.of (.ok (Zksql.fixLoop data nv pt))
  | [], _, _ => rfl
  | r :: rs, data, nv => by
    rw [fixLoop, fixOne_eq, Outcomes.of_ok_bind, fixLoop_eq rs]
    rfl

theorem fixLastLoop_eq : ∀ (pt data : List F) (nv : Nat), fixLastLoop data nv pt = Outcomes.of (.ok (Zksql.fixLastLoop data nv pt))
  | [], _, _ => rfl
  | r :: rs, data, nv => by
    rw [fixLastLoop, fixLastOne_eq, Outcomes.of_ok_bind, fixLastLoop_eq rs]
    rfl

theorem fixVariables_eq (p : Mle F) (pt : List F) : fixVariables p pt = Outcomes.of (Zksql.fixVariables p pt) := by
  unfold fixVariables Zksql.fixVariables
  split
  · rw [fixLoop_eq, Outcomes.of_ok_bind]
  · rfl

theorem fixLastVariables_eq (p : Mle F) (pt : List F) : fixLastVariables p pt = Outcomes.of (Zksql.fixLastVariables p pt) := by
  unfold fixLastVariables Zksql.fixLastVariables
  split
  · rw [fixLastLoop_eq, Outcomes.of_ok_bind]
  · rfl

theorem evaluateOpt_eq (p : Mle F) (pt : List F) : evaluateOpt p pt = Outcomes.of (Zksql.evaluateOpt p pt) := by
  unfold evaluateOpt Zksql.evaluateOpt
  split
  · rw [fixVariables_eq]
    exact Outcomes.of_bind fun _ _ => rfl
  · rfl

theorem buildEqHelper_eq : ∀ r : List F, buildEqHelper r = Outcomes.of (Zksql.buildEqHelper r)
  | [] => rfl
  | [_] => rfl
  | r :: r' :: rs => by
    rw [buildEqHelper, Zksql.buildEqHelper, buildEqHelper_eq (r' :: rs)]
    refine Outcomes.of_bind fun buf _ => ?_
    rw [updateAll_eq fun i _ => (panicOnly_idx _ _).bind fun _ => panicOnly_ok _, List.length_replicate]
    rw [sch_mapM_ok (v := fun i => if i % 2 = 0 then buf.getD (i / 2) 0 - r * buf.getD (i / 2) 0 else r * buf.getD (i / 2) 0)]
    intro i hi
    have hi := List.mem_range.1 hi
    have h2 : i / 2 < buf.length := by omega
    rw [idx_lt (by simpa using hi), ok_bind, idx_lt h2, ok_bind]
    simp [List.getD_eq_getElem?_getD, h2]

theorem buildEq_eq (r : List F) : buildEq r = Outcomes.of (Zksql.buildEq r) := by
  unfold buildEq Zksql.buildEq buildEqVec
  rw [buildEqHelper_eq]
  exact Outcomes.of_bind fun _ _ => rfl

/-! ## Sumcheck, prover -/

theorem panicOnly_fromEvals (nv : Nat) (l : List F) : PanicOnly (Mle.fromEvals nv l) := by
  unfold Mle.fromEvals
  split
  · exact panicOnly_ok _
  · exact panicOnly_panic

theorem panicOnly_fixVariables (p : Mle F) (pt : List F) : PanicOnly (Zksql.fixVariables p pt) := by
  unfold Zksql.fixVariables
  split
  · exact panicOnly_fromEvals _ _
  · exact panicOnly_panic

theorem productMsg_eq (aux : List (List F × List F)) (maxDegree : Nat) (tables : List (Mle F)) (nb : Nat) (cp : F × List Nat) :
    productMsg aux maxDegree tables nb cp = Outcomes.of (Zksql.productMsg aux maxDegree tables nb cp) := by
  unfold productMsg Zksql.productMsg
  rw [productSum_eq]
  refine Outcomes.of_bind fun sum0 _ => ?_
  dsimp only
  split
  · rfl
  · rw [collectAll_eq]
    · exact Outcomes.of_bind fun _ _ => rfl
    · intro i
      split
      · exact panicOnly_panic
      · exact (panicOnly_idx _ _).bind fun _ => panicOnly_ok _

theorem mapM_map_mle (l : List (ArcMle F)) : ((List.range l.length).mapM fun i => (idx l i).map (·.mle)) = .ok (l.map (·.mle)) := by
  have := mapM_range_idx l fun a => (.ok a.mle : Res (Mle F))
  rw [sch_mapM_ok (v := fun a : ArcMle F => a.mle) fun _ _ => rfl] at this
  rw [← this]
  congr 1

theorem mapM_fixed (l : List (ArcMle F)) (f : Mle F → Res (Mle F)) :
    ((List.range (l.map (·.mle)).length).mapM fun i => idx (l.map (·.mle)) i >>= f) = l.mapM fun a => f a.mle := by
  rw [mapM_range_idx, List.mapM_map]
  rfl

theorem takeChallenge_eq (st : ProverState F) (ch : Option F) : takeChallenge st ch = Outcomes.of (Zksql.takeChallenge st ch) := by
  unfold takeChallenge Zksql.takeChallenge
  rw [collectAll_eq fun i => (panicOnly_idx _ _).map _, mapM_map_mle, Outcomes.of_ok_bind]
  cases ch with
  | none =>
    dsimp only
    split <;> rfl
  | some c =>
    dsimp only
    split
    · rfl
    · refine Outcomes.of_bind fun r _ => ?_
      have key : ∀ fixed : Nat → Mle F → Res (Mle F), (∀ i m, fixVariables m [r] (fixed i m)) →
          (do let ts ← updateAll fixed (st.poly.flat.map (·.mle))
              pure (st.challenges ++ [c], ts) : Outcomes _) =
            Outcomes.of (do let ts ← st.poly.flat.mapM fun a => Zksql.fixVariables a.mle [r]
                            .ok (st.challenges ++ [c], ts)) := by
        intro fixed hf
        have : fixed = fun _ m => Zksql.fixVariables m [r] := by
          funext i m
          have := hf i m
          rwa [fixVariables_eq] at this
        subst this
        rw [updateAll_eq fun _ _ => panicOnly_fixVariables _ _, mapM_fixed st.poly.flat fun m => Zksql.fixVariables m [r]]
        exact Outcomes.of_bind fun _ _ => rfl
      funext x
      apply propext
      constructor
      · rintro ⟨fixed, hf, h⟩
        rwa [key fixed hf] at h
      · intro h
        refine ⟨fun _ m => Zksql.fixVariables m [r], fun _ m => by rw [fixVariables_eq]; rfl, ?_⟩
        rw [key]
        · exact h
        · intro _ m; rw [fixVariables_eq]; rfl

theorem sumProducts_eq (aux : List (List F × List F)) (maxDegree : Nat) (tables : List (Mle F)) (nb : Nat) :
    ∀ (cps : List (F × List Nat)) (acc : List F), sumProducts aux maxDegree tables nb cps acc =
      Outcomes.of (cps.foldlM (init := acc) fun acc cp => do
        let m ← Zksql.productMsg aux maxDegree tables nb cp
        .ok ((List.range acc.length).map fun i => acc.getD i 0 + m.getD i 0))
  | [], _ => rfl
  | cp :: cps, acc => by
    rw [sumProducts, productMsg_eq, List.foldlM_cons]
    rcases e : Zksql.productMsg aux maxDegree tables nb cp with e1 | m
    · exact Outcomes.of_error_bind _ _
    · rw [Outcomes.of_ok_bind, sumProducts_eq aux maxDegree tables nb cps]
      rfl

theorem proveRound_eq (st : ProverState F) (ch : Option F) : proveRound st ch = Outcomes.of (Zksql.proveRound st ch) := by
  unfold proveRound Zksql.proveRound
  split
  · rfl
  · rw [takeChallenge_eq]
    refine Outcomes.of_bind fun ct _ => ?_
    obtain ⟨chals, tables⟩ := ct
    dsimp only
    rw [sumProducts_eq]
    refine Outcomes.of_bind fun msg _ => ?_
    rw [collectAll_eq fun i => panicOnly_idx _ _, mapM_idx, Outcomes.of_ok_bind]
    rfl

theorem proveLoop_eq (H : Oracle F C) : ∀ (n : Nat) (st : ProverState F) (ch : Option F) (tr : Transcript F C),
    proveLoop H n st ch tr = Outcomes.of (Zksql.proveLoop H n st ch tr)
  | 0, _, _, _ => rfl
  | n + 1, st, ch, tr => by
    rw [proveLoop, Zksql.proveLoop, proveRound_eq]
    refine Outcomes.of_bind fun ms _ => ?_
    obtain ⟨msg, st'⟩ := ms
    dsimp only
    refine Outcomes.of_bind fun ct _ => ?_
    obtain ⟨c, tr'⟩ := ct
    dsimp only
    rw [proveLoop_eq H n]
    exact Outcomes.of_bind fun _ _ => rfl

theorem sumcheckProve_eq (H : Oracle F C) (vp : VirtPoly F) (tr : Transcript F C) :
    sumcheckProve H vp tr = Outcomes.of (Zksql.sumcheckProve H vp tr) := by
  unfold sumcheckProve Zksql.sumcheckProve
  refine Outcomes.of_bind fun st _ => ?_
  rw [proveLoop_eq]
  exact Outcomes.of_bind fun _ _ => rfl

theorem zerocheckProve_eq (H : Oracle F C) (vp : VirtPoly F) (fresh : Nat) (tr : Transcript F C) :
    zerocheckProve H vp fresh tr = Outcomes.of (Zksql.zerocheckProve H vp fresh tr) := by
  unfold zerocheckProve Zksql.zerocheckProve VirtPoly.buildFHat
  refine Outcomes.of_bind fun rt _ => ?_
  obtain ⟨r, tr'⟩ := rt
  dsimp only
  have : (if vp.numVariables ≠ r.length then Outcomes.of (.error (.err .invalidParameters)) else do
      let e ← buildEq r
      Outcomes.of (tryState (vp.mulByMle ⟨fresh, e⟩ 1)) : Outcomes (VirtPoly F)) =
      Outcomes.of (if vp.numVariables ≠ r.length then .error (.err .invalidParameters) else do
        let e ← Zksql.buildEq r
        tryState (vp.mulByMle ⟨fresh, e⟩ 1)) := by
    split
    · rfl
    · rw [buildEq_eq]
      exact Outcomes.of_bind fun _ _ => rfl
  rw [this]
  exact Outcomes.of_bind fun _ _ => sumcheckProve_eq _ _ _

/-! ## Sumcheck, verifier -/

theorem mapM_id_all : ∀ {l : List (Res α)} {vs : List α}, l.mapM id = .ok vs → ∀ r ∈ l, ∃ v, r = .ok v
  | [], _, _, r, hr => by cases hr
  | a :: l, vs, h, r, hr => by
    rw [List.mapM_cons] at h
    obtain ⟨v, h1, h⟩ := sch_bind_inv h
    obtain ⟨w, h2, -⟩ := sch_bind_inv h
    rcases List.mem_cons.1 hr with rfl | hr
    · exact ⟨v, h1⟩
    · exact mapM_id_all h2 r hr

theorem firstErr_none_of_ok {items : List (Res α)} (h : ∀ r ∈ items, ∃ v, r = .ok v) : ∀ done : List Nat, firstErr items done = none
  | [] => rfl
  | i :: is => by
    rw [firstErr]
    rcases e : items[i]? with _ | r
    · exact firstErr_none_of_ok h is
    · obtain ⟨v, rfl⟩ := h r (List.mem_of_getElem? e)
      exact firstErr_none_of_ok h is

/-- The shared `collect` gives values when the one of a single thread does. -/
theorem collectResult_ok {items : List (Res α)} {vs : List α} : collectResult items (.ok vs) ↔ items.mapM id = .ok vs := by
  constructor
  · rintro ⟨done, -, -, -, h⟩
    split at h
    · cases h
    · split at h
      · cases h
      · exact h.symm
  · intro h
    have hall := mapM_id_all h
    refine ⟨List.range items.length, List.nodup_range, fun i hi => List.mem_range.1 hi, Or.inl fun i hi => List.mem_range.2 hi, ?_⟩
    rw [if_neg, firstErr_none_of_ok hall, h]
    simp only [List.any_eq_true, not_exists, not_and]
    intro i _
    rcases e : items[i]? with _ | r
    · simp
    · obtain ⟨v, rfl⟩ := hall r (List.mem_of_getElem? e)
      simp

/-- The first failure in the order of the list. -/
theorem mapM_id_fail : ∀ (l : List (Res α)), (∃ vs, l.mapM id = .ok vs) ∨ ∃ (i : Nat) (e : Fail), l[i]? = some (.error e) ∧
    (∀ j < i, ∃ v, l[j]? = some (.ok v)) ∧ l.mapM id = .error e
  | [] => Or.inl ⟨[], rfl⟩
  | .error e :: l => Or.inr ⟨0, e, rfl, fun j hj => absurd hj (Nat.not_lt_zero j), rfl⟩
  | .ok v :: l => by
    rcases mapM_id_fail l with ⟨vs, h⟩ | ⟨i, e, h1, h2, h3⟩
    · exact Or.inl ⟨v :: vs, by rw [List.mapM_cons, h]; rfl⟩
    · refine Or.inr ⟨i + 1, e, by simpa using h1, fun j hj => ?_, by rw [List.mapM_cons, h3]; rfl⟩
      cases j with
      | zero => exact ⟨v, rfl⟩
      | succ j => obtain ⟨w, hw⟩ := h2 j (by omega); exact ⟨w, by simpa using hw⟩

theorem firstErr_append {items : List (Res α)} : ∀ (l l' : List Nat), (∀ j ∈ l, ∃ v, items[j]? = some (.ok v)) →
    firstErr items (l ++ l') = firstErr items l'
  | [], _, _ => rfl
  | j :: l, l', h => by
    obtain ⟨v, hv⟩ := h j (by simp)
    rw [List.cons_append, firstErr, hv]
    exact firstErr_append l l' fun k hk => h k (by simp [hk])

/-- What one thread does is one of the possibilities. -/
theorem collectResult_seq (items : List (Res α)) : collectResult items (items.mapM id) := by
  rcases mapM_id_fail items with ⟨vs, h⟩ | ⟨i, e, h1, h2, h3⟩
  · rw [h]; exact collectResult_ok.2 h
  · have hi : i < items.length := (List.getElem?_eq_some_iff.1 h1).1
    cases e with
    | panic =>
      refine ⟨List.range items.length, List.nodup_range, fun i hi => List.mem_range.1 hi, Or.inl fun i hi => List.mem_range.2 hi, ?_⟩
      rw [if_pos, h3]
      exact List.any_eq_true.2 ⟨i, List.mem_range.2 hi, by rw [h1]⟩
    | err k =>
      have hf : firstErr items (List.range (i + 1)) = some k := by
        rw [List.range_succ, firstErr_append _ _ fun j hj => h2 j (List.mem_range.1 hj), firstErr, h1]
      refine ⟨List.range (i + 1), List.nodup_range, fun j hj => by have := List.mem_range.1 hj; omega, Or.inr (by rw [hf]; rfl), ?_⟩
      rw [if_neg, hf, h3]
      simp only [List.any_eq_true, not_exists, not_and]
      intro j hj
      have hj := List.mem_range.1 hj
      rcases Nat.lt_or_ge j i with hlt | hge
      · obtain ⟨v, hv⟩ := h2 j hlt
        simp [hv]
      · have : j = i := by omega
        subst this
        simp [h1]

theorem firstErr_mem {items : List (Res α)} {k : ErrKind} : ∀ {done : List Nat}, firstErr items done = some k →
    ∃ i : Nat, items[i]? = some (.error (.err k))
  | i :: is, h => by
    rw [firstErr] at h
    split at h
    · rename_i e he
      cases h
      exact ⟨i, he⟩
    · exact firstErr_mem h

/-- Items that fail by panics only. -/
theorem collectResult_panics {items : List (Res α)} (h : ∀ r ∈ items, PanicOnly r) :
    collectResult items = Outcomes.of (items.mapM id) := by
  have hn : ∀ done, firstErr items done = none := by
    intro done
    rcases e : firstErr items done with _ | k
    · rfl
    · obtain ⟨i, hi⟩ := firstErr_mem e
      exact absurd rfl (h _ (List.mem_of_getElem? hi) k)
  funext x
  apply propext
  constructor
  · rintro ⟨done, -, -, hall, rfl⟩
    rw [hn] at hall ⊢
    have hall := hall.resolve_right (by simp)
    split
    · rename_i hp
      obtain ⟨i, -, hi⟩ := List.any_eq_true.1 hp
      rcases mapM_id_fail items with ⟨vs, hv⟩ | ⟨j, e, h1, -, h3⟩
      · rcases e : items[i]? with _ | r
        · rw [e] at hi; cases hi
        · obtain ⟨v, rfl⟩ := mapM_id_all hv r (List.mem_of_getElem? e)
          rw [e] at hi; cases hi
      · cases e with
        | err k => exact absurd rfl (h _ (List.mem_of_getElem? h1) k)
        | panic => exact h3.symm
    · rfl
  · rintro rfl
    exact collectResult_seq items

variable [DecidableEq F]

theorem mapM_eq_mapM_id (f : α → Res β) (l : List α) : l.mapM f = (l.map f).mapM id := by
  rw [List.mapM_map]; rfl

theorem checkAndGenerateSubclaim_ok {st : VerifierState F} {s : F} {sub : SubClaim F} :
    checkAndGenerateSubclaim st s (.ok sub) ↔ Zksql.checkAndGenerateSubclaim st s = .ok sub := by
  unfold checkAndGenerateSubclaim Zksql.checkAndGenerateSubclaim
  split
  · exact eq_comm
  · split
    · exact eq_comm
    · rw [Outcomes.bind_ok, mapM_eq_mapM_id]
      constructor
      · rintro ⟨vs, h, k⟩
        rw [collectResult_ok.1 h, ok_bind]
        dsimp only at k ⊢
        obtain ⟨u, k1, k⟩ := Outcomes.bind_ok.1 k
        obtain ⟨last, k2, k⟩ := Outcomes.bind_ok.1 k
        rw [← show _ = _ from k1, ← show _ = _ from k2, ok_bind, ok_bind]
        exact (show _ = _ from k).symm
      · intro h
        obtain ⟨vs, h1, h⟩ := sch_bind_inv h
        obtain ⟨u, h2, h⟩ := sch_bind_inv h
        obtain ⟨last, h3, h⟩ := sch_bind_inv h
        refine ⟨vs, collectResult_ok.2 h1, ?_⟩
        exact Outcomes.bind_ok.2 ⟨u, h2.symm, Outcomes.bind_ok.2 ⟨last, h3.symm, h.symm⟩⟩

theorem sumcheckVerify_ok {H : Oracle F C} {s : F} {pf : IOPProof F} {d n : Nat} {tr : Transcript F C}
    {out : SubClaim F × Transcript F C} :
    sumcheckVerify H s pf d n tr (.ok out) ↔ Zksql.sumcheckVerify H s pf d n tr = .ok out := by
  unfold sumcheckVerify Zksql.sumcheckVerify
  dsimp only
  rcases verifyLoop H pf n 0 (verifierInit d n) (tr.append "aux info" (.aux d n)) with e | ⟨st, tr'⟩
  · rw [Outcomes.of_error_bind]
    exact eq_comm
  · rw [Outcomes.of_ok_bind, ok_bind]
    dsimp only
    rw [Outcomes.bind_ok]
    constructor
    · rintro ⟨sub, h, k⟩
      rw [checkAndGenerateSubclaim_ok.1 h]
      exact (show _ = _ from k).symm
    · intro h
      obtain ⟨sub, h1, h⟩ := sch_bind_inv h
      exact ⟨sub, checkAndGenerateSubclaim_ok.2 h1, h.symm⟩

theorem zerocheckVerify_ok {H : Oracle F C} {pf : IOPProof F} {d n : Nat} {tr : Transcript F C}
    {out : ZeroSubClaim F × Transcript F C} :
    zerocheckVerify H pf d n tr (.ok out) ↔ Zksql.zerocheckVerify H pf d n tr = .ok out := by
  unfold zerocheckVerify Zksql.zerocheckVerify
  rcases idx pf.proofs 0 with e | m
  · rw [Outcomes.of_error_bind]; exact eq_comm
  rw [Outcomes.of_ok_bind, ok_bind]
  rcases idx m 0 with e | a
  · rw [Outcomes.of_error_bind]; exact eq_comm
  rw [Outcomes.of_ok_bind, ok_bind]
  rcases idx m 1 with e | b
  · rw [Outcomes.of_error_bind]; exact eq_comm
  rw [Outcomes.of_ok_bind, ok_bind]
  split
  · exact eq_comm
  rcases tr.challenges H "0check r" n with e | ⟨r, tr'⟩
  · rw [Outcomes.of_error_bind]; exact eq_comm
  rw [Outcomes.of_ok_bind, ok_bind]
  dsimp only
  rw [Outcomes.bind_ok]
  constructor
  · rintro ⟨⟨sub, tr''⟩, h, k⟩
    rw [sumcheckVerify_ok.1 h, ok_bind]
    dsimp only at k ⊢
    obtain ⟨e, k1, k⟩ := Outcomes.bind_ok.1 k
    obtain ⟨ex, k2, k⟩ := Outcomes.bind_ok.1 k
    rw [← show _ = _ from k1, ok_bind, ← show _ = _ from k2, ok_bind]
    exact (show _ = _ from k).symm
  · intro h
    obtain ⟨⟨sub, tr''⟩, h1, h⟩ := sch_bind_inv h
    obtain ⟨e, h2, h⟩ := sch_bind_inv h
    obtain ⟨ex, h3, h⟩ := sch_bind_inv h
    exact ⟨_, sumcheckVerify_ok.2 h1, Outcomes.bind_ok.2 ⟨e, h2.symm, Outcomes.bind_ok.2 ⟨ex, h3.symm, h.symm⟩⟩⟩

theorem checkAndGenerateSubclaim_seq (st : VerifierState F) (s : F) :
    checkAndGenerateSubclaim st s (Zksql.checkAndGenerateSubclaim st s) := by
  unfold checkAndGenerateSubclaim Zksql.checkAndGenerateSubclaim
  split
  · exact rfl
  · split
    · exact rfl
    · rw [mapM_eq_mapM_id]
      generalize List.map _ (st.polynomialsReceived.zip st.challenges) = items
      have h := collectResult_seq items
      rcases e : items.mapM id with e1 | vs
      · rw [e] at h
        exact Or.inr ⟨_, h, rfl⟩
      · rw [e] at h
        refine Or.inl ⟨_, h, ?_⟩
        have hb : (Outcomes.of (deferredChecks (st.polynomialsReceived.take st.numVars) (s :: vs)) >>= fun _ =>
            Outcomes.of (idx (s :: vs) st.numVars) >>= fun last => (pure ⟨st.challenges, last⟩ : Outcomes (SubClaim F))) =
          Outcomes.of (deferredChecks (st.polynomialsReceived.take st.numVars) (s :: vs) >>= fun _ =>
            idx (s :: vs) st.numVars >>= fun last => .ok ⟨st.challenges, last⟩) :=
          Outcomes.of_bind fun _ _ => Outcomes.of_bind fun _ _ => rfl
        exact (congrFun hb _).mpr rfl

theorem sumcheckVerify_seq (H : Oracle F C) (s : F) (pf : IOPProof F) (d n : Nat) (tr : Transcript F C) :
    sumcheckVerify H s pf d n tr (Zksql.sumcheckVerify H s pf d n tr) := by
  unfold sumcheckVerify Zksql.sumcheckVerify
  dsimp only
  rcases verifyLoop H pf n 0 (verifierInit d n) (tr.append "aux info" (.aux d n)) with e | ⟨st, tr'⟩
  · rw [Outcomes.of_error_bind]; rfl
  · rw [Outcomes.of_ok_bind, ok_bind]
    dsimp only
    have h := checkAndGenerateSubclaim_seq st s
    rcases e : Zksql.checkAndGenerateSubclaim st s with e1 | sub
    · rw [e] at h
      exact Or.inr ⟨_, h, rfl⟩
    · rw [e] at h
      exact Or.inl ⟨_, h, rfl⟩

theorem panicOnly_fdiv (a b : F) : PanicOnly (fdiv a b) := by
  unfold fdiv
  split
  · exact panicOnly_panic
  · exact panicOnly_ok _

theorem panicOnly_chkU (b n : Nat) : PanicOnly (chkU b n) := by
  unfold chkU
  split
  · exact panicOnly_ok _
  · exact panicOnly_panic

theorem panicOnly_chkI (b : Nat) (z : Int) : PanicOnly (chkI b z) := by
  unfold chkI
  split
  · exact panicOnly_ok _
  · exact panicOnly_panic

theorem panicOnly_uFactorial (b : Nat) : ∀ n, PanicOnly (uFactorial b n)
  | 0 => panicOnly_ok _
  | 1 => panicOnly_ok _
  | n + 2 => (panicOnly_uFactorial b (n + 1)).bind fun _ => panicOnly_chkU _ _

theorem panicOnly_numToField (b : Nat) (z : Int) : PanicOnly (numToField b z : Res F) := by
  unfold numToField
  split
  · exact (panicOnly_chkI _ _).map _
  · exact panicOnly_ok _

theorem panicOnly_interpLoopInt (b : Nat) (p evals : List F) (prod lastDen : F) (len : Nat) : ∀ (i : Nat) (res : F) (num : Int) (den : Nat),
    PanicOnly (interpLoopInt b p evals prod lastDen len i res num den)
  | 0, _, _, _ => panicOnly_ok _
  | i + 1, res, num, den => by
    rw [interpLoopInt]
    refine (panicOnly_numToField _ _).bind fun _ => (panicOnly_idx _ _).bind fun _ => (panicOnly_idx _ _).bind fun _ =>
      (panicOnly_fdiv _ _).bind fun _ => ?_
    split
    · exact (panicOnly_chkI _ _).bind fun _ => (panicOnly_chkU _ _).bind fun _ => panicOnly_interpLoopInt b p evals prod lastDen len i _ _ _
    · exact panicOnly_interpLoopInt b p evals prod lastDen len i _ _ _

theorem panicOnly_interpLoopField (p evals : List F) (prod : F) (len : Nat) : ∀ (i : Nat) (res up down : F),
    PanicOnly (interpLoopField p evals prod len i res up down)
  | 0, _, _, _ => panicOnly_ok _
  | i + 1, res, up, down => by
    rw [interpLoopField]
    refine (panicOnly_idx _ _).bind fun _ => (panicOnly_idx _ _).bind fun _ => (panicOnly_fdiv _ _).bind fun _ => ?_
    split
    · exact panicOnly_interpLoopField p evals prod len i _ _ _
    · exact panicOnly_interpLoopField p evals prod len i _ _ _

theorem panicOnly_interpolate (p : List F) (x : F) : PanicOnly (interpolateUniPoly p x) := by
  unfold interpolateUniPoly
  dsimp only
  split
  · exact panicOnly_panic
  · split
    · exact (panicOnly_uFactorial _ _).bind fun _ => panicOnly_interpLoopInt _ _ _ _ _ _ _ _ _ _
    · split
      · exact (panicOnly_uFactorial _ _).bind fun _ => panicOnly_interpLoopInt _ _ _ _ _ _ _ _ _ _
      · exact panicOnly_interpLoopField _ _ _ _ _ _ _ _

theorem checkAndGenerateSubclaim_lengths {st : VerifierState F}
    (h : ∀ pc ∈ st.polynomialsReceived.zip st.challenges, pc.1.length = st.maxDegree + 1) (s : F) :
    checkAndGenerateSubclaim st s = Outcomes.of (Zksql.checkAndGenerateSubclaim st s) := by
  unfold checkAndGenerateSubclaim Zksql.checkAndGenerateSubclaim
  split
  · rfl
  · split
    · rfl
    · rw [mapM_eq_mapM_id, collectResult_panics]
      · exact Outcomes.of_bind fun _ _ => Outcomes.of_bind fun _ _ => Outcomes.of_bind fun _ _ => rfl
      · intro r hr
        obtain ⟨pc, hpc, rfl⟩ := List.mem_map.1 hr
        rw [if_neg (by simpa using h _ hpc)]
        exact panicOnly_interpolate _ _

theorem verifyLoop_received {H : Oracle F C} {pf : IOPProof F} : ∀ {n i : Nat} {st st' : VerifierState F} {tr tr' : Transcript F C},
    verifyLoop H pf n i st tr = .ok (st', tr') → st'.maxDegree = st.maxDegree ∧
      ∀ m ∈ st'.polynomialsReceived, m ∈ st.polynomialsReceived ∨ m ∈ pf.proofs
  | 0, _, _, _, _, _, h => by cases h; exact ⟨rfl, fun m hm => Or.inl hm⟩
  | n + 1, i, st, st', tr, tr', h => by
    rw [verifyLoop] at h
    obtain ⟨msg, h1, h⟩ := sch_bind_inv h
    dsimp only at h
    obtain ⟨⟨c, st1, tr1⟩, h2, h⟩ := sch_bind_inv h
    dsimp only at h
    obtain ⟨k1, k2⟩ := verifyLoop_received h
    unfold verifyRound at h2
    split at h2
    · cases h2
    · obtain ⟨⟨c', tr2⟩, -, h2⟩ := sch_bind_inv h2
      cases h2
      refine ⟨k1, fun m hm => ?_⟩
      rcases k2 m hm with h3 | h3
      · rcases List.mem_append.1 h3 with h3 | h3
        · exact Or.inl h3
        · right
          rw [List.mem_singleton.1 h3]
          unfold idx at h1
          rcases e : pf.proofs[i]? with _ | x
          · rw [e] at h1; cases h1
          · rw [e] at h1; cases h1; exact List.mem_of_getElem? e
      · exact Or.inr h3

theorem sumcheckVerify_lengths {H : Oracle F C} {pf : IOPProof F} {d : Nat} (h : ∀ m ∈ pf.proofs, m.length = d + 1) (s : F) (n : Nat)
    (tr : Transcript F C) : sumcheckVerify H s pf d n tr = Outcomes.of (Zksql.sumcheckVerify H s pf d n tr) := by
  unfold sumcheckVerify Zksql.sumcheckVerify
  dsimp only
  refine Outcomes.of_bind fun p hp => ?_
  obtain ⟨st, tr'⟩ := p
  obtain ⟨k1, k2⟩ := verifyLoop_received hp
  dsimp only
  rw [checkAndGenerateSubclaim_lengths]
  · exact Outcomes.of_bind fun _ _ => rfl
  · intro pc hpc
    rw [k1]
    exact h pc.1 ((k2 pc.1 (List.of_mem_zip hpc).1).resolve_left (by simp [verifierInit]))

theorem checkAndGenerateSubclaim_unique {st : VerifierState F} {s : F} {sub : SubClaim F}
    (h : Zksql.checkAndGenerateSubclaim st s = .ok sub) : checkAndGenerateSubclaim st s = Outcomes.of (.ok sub) := by
  rw [checkAndGenerateSubclaim_lengths, h]
  intro pc hpc
  unfold Zksql.checkAndGenerateSubclaim at h
  split at h
  · cases h
  · split at h
    · cases h
    · obtain ⟨vs, h1, -⟩ := sch_bind_inv h
      rw [mapM_eq_mapM_id] at h1
      obtain ⟨v, hv⟩ := mapM_id_all h1 _ (List.mem_map.2 ⟨pc, hpc, rfl⟩)
      by_contra hne
      rw [if_pos hne] at hv
      cases hv

theorem sumcheckVerify_unique {H : Oracle F C} {s : F} {pf : IOPProof F} {d n : Nat} {tr : Transcript F C}
    {out : SubClaim F × Transcript F C} (h : Zksql.sumcheckVerify H s pf d n tr = .ok out) :
    sumcheckVerify H s pf d n tr = Outcomes.of (.ok out) := by
  unfold Zksql.sumcheckVerify at h
  unfold sumcheckVerify
  dsimp only at h ⊢
  obtain ⟨⟨st, tr'⟩, h1, h⟩ := sch_bind_inv h
  obtain ⟨sub, h2, h⟩ := sch_bind_inv h
  rw [h1, Outcomes.of_ok_bind]
  dsimp only
  rw [checkAndGenerateSubclaim_unique h2, Outcomes.of_ok_bind, ← h]
  rfl

theorem zerocheckVerify_unique {H : Oracle F C} {pf : IOPProof F} {d n : Nat} {tr : Transcript F C}
    {out : ZeroSubClaim F × Transcript F C} (h : Zksql.zerocheckVerify H pf d n tr = .ok out) :
    zerocheckVerify H pf d n tr = Outcomes.of (.ok out) := by
  unfold Zksql.zerocheckVerify at h
  unfold zerocheckVerify
  obtain ⟨m, h1, h⟩ := sch_bind_inv h
  obtain ⟨a, h2, h⟩ := sch_bind_inv h
  obtain ⟨b, h3, h⟩ := sch_bind_inv h
  rw [h1, Outcomes.of_ok_bind, h2, Outcomes.of_ok_bind, h3, Outcomes.of_ok_bind]
  split at h
  · cases h
  · rename_i hne
    rw [if_neg hne]
    obtain ⟨⟨r, tr'⟩, h4, h⟩ := sch_bind_inv h
    obtain ⟨⟨sub, tr''⟩, h5, h⟩ := sch_bind_inv h
    obtain ⟨e, h6, h⟩ := sch_bind_inv h
    obtain ⟨ex, h7, h⟩ := sch_bind_inv h
    rw [h4, Outcomes.of_ok_bind]
    dsimp only
    rw [sumcheckVerify_unique h5, Outcomes.of_ok_bind]
    dsimp only
    rw [h6, Outcomes.of_ok_bind, h7, Outcomes.of_ok_bind, ← h]
    rfl

theorem verifyClaims_run (pcs : Pcs F C B) (H : Oracle F C) (st : VSt F C B) (ran : F → VSt F C B → Res (SubClaim F × Transcript F C)) :
    (do
      let agg ← VSt.aggregate H
      let sub ← (fun t => checkSumcheck H (ran agg.2 t) t : Act (VSt F C B) (SubClaim F))
      let ids ← Act.reads fun s => .ok (PTracker.sortedIds s.own.proof.comms)
      let comms ← Act.reads fun s => ids.mapM fun id => unwrap (s.own.matComms.lookup id)
      let bp ← Act.reads fun s => idx s.own.proof.pcsProof 0
      let _ ← VSt.checkBatch pcs comms (ids.map fun _ => sub.point) bp
      pure () : Act (VSt F C B) Unit) st =
    match VSt.aggregate H st with
    | (.ok agg, st1) =>
      (match ran agg.2 st1 with
      | .ok (sub, tr) => (do
          let ids ← Act.reads fun s => .ok (PTracker.sortedIds s.own.proof.comms)
          let comms ← Act.reads fun s => ids.mapM fun id => unwrap (s.own.matComms.lookup id)
          let bp ← Act.reads fun s => idx s.own.proof.pcsProof 0
          let _ ← VSt.checkBatch pcs comms (ids.map fun _ => sub.point) bp
          pure () : Act (VSt F C B) Unit) { st1 with own := { st1.own with transcript := tr } }
      | .error .panic => (.error .panic, { st1 with own := { st1.own with transcript := sumcheckVerifyTrail H st1.own.proof.scProof st1.own.proof.scMaxDegree st1.own.proof.scNumVars st1.own.transcript } })
      | .error (.err _) => (.error (.err .invalidVerifier), { st1 with own := { st1.own with transcript := sumcheckVerifyTrail H st1.own.proof.scProof st1.own.proof.scMaxDegree st1.own.proof.scNumVars st1.own.transcript } }))
    | (.error e, st1) => (.error e, st1) := by
  change Act.bind' _ _ _ = _
  unfold Act.bind'
  rcases VSt.aggregate H st with ⟨e | agg, st1⟩
  · rfl
  · dsimp only
    change Act.bind' _ _ _ = _
    unfold Act.bind' checkSumcheck
    dsimp only
    rcases ran agg.2 st1 with (_ | _) | ⟨sub, tr⟩ <;> rfl
theorem verifyClaims_ok {pcs : Pcs F C B} {H : Oracle F C} {st st' : VSt F C B} :
    verifyClaims pcs H st (.ok (), st') ↔ VSt.verifyClaims pcs H st = (.ok (), st') := by
  have hseq := verifyClaims_run pcs H st fun s t => Zksql.sumcheckVerify H s t.own.proof.scProof t.own.proof.scMaxDegree t.own.proof.scNumVars
    t.own.transcript
  have hmodel : VSt.verifyClaims pcs H st = _ := hseq
  constructor
  · rintro ⟨ran, hr, h⟩
    rw [verifyClaims_run] at h
    rw [hmodel]
    rcases ea : VSt.aggregate H st with ⟨e | agg, st1⟩
    · rw [ea] at h; cases h
    · rw [ea] at h
      dsimp only at h ⊢
      have hr := hr agg.2 st1
      rcases e : ran agg.2 st1 with (_ | _) | ⟨sub, tr⟩
      · rw [e] at h; cases h
      · rw [e] at h; cases h
      · rw [e] at h hr
        rw [sumcheckVerify_ok.1 hr]
        exact h.symm
  · intro h
    exact ⟨_, fun s t => sumcheckVerify_seq H s _ _ _ _, h.symm⟩

/-- When one thread succeeds, so does every schedule, in the same way. -/
theorem verifyClaims_unique {pcs : Pcs F C B} {H : Oracle F C} {st st' : VSt F C B} (h : VSt.verifyClaims pcs H st = (.ok (), st'))
    (out : Res Unit × VSt F C B) : verifyClaims pcs H st out ↔ out = (.ok (), st') := by
  have hseq := verifyClaims_run pcs H st fun s t => Zksql.sumcheckVerify H s t.own.proof.scProof t.own.proof.scMaxDegree
    t.own.proof.scNumVars t.own.transcript
  have hmodel : VSt.verifyClaims pcs H st = _ := hseq
  rw [hmodel] at h
  constructor
  · rintro ⟨ran, hr, rfl⟩
    rw [verifyClaims_run]
    rcases ea : VSt.aggregate H st with ⟨e | agg, st1⟩
    · rw [ea] at h; cases h
    · rw [ea] at h
      dsimp only at h ⊢
      have hr := hr agg.2 st1
      rcases e : Zksql.sumcheckVerify H agg.2 st1.own.proof.scProof st1.own.proof.scMaxDegree st1.own.proof.scNumVars
        st1.own.transcript with (_ | _) | ⟨sub, tr⟩
      · rw [e] at h; cases h
      · rw [e] at h; cases h
      · rw [sumcheckVerify_unique e] at hr
        rw [e] at h
        rw [show ran agg.2 st1 = .ok (sub, tr) from hr]
        exact h
  · rintro rfl
    exact ⟨_, fun s t => sumcheckVerify_seq H s _ _ _ _, (hmodel.trans h).symm⟩

end Par
end Zksql
