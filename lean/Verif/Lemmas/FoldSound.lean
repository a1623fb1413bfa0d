import Verif.Lemmas.Claims
import Verif.Lemmas.Kzg
/-! Folding claims and the sumcheck, challenge by challenge: for each challenge, the values that let a false claim pass. -/
set_option linter.unusedSectionVars false
namespace Zksql
open Spec Polynomial
variable {F : Type} [Field F]

/-- The only solution, if there is one. -/
noncomputable def oneSol (p : F → Prop) : Finset F := by
  classical exact if h : ∃ c, p c then {h.choose} else ∅

theorem oneSol_card (p : F → Prop) : (oneSol p).card ≤ 1 := by
  unfold oneSol
  split <;> simp

theorem mem_oneSol {p : F → Prop} (hu : ∀ c c', p c → p c' → c = c') {c : F} (h : p c) : c ∈ oneSol p := by
  unfold oneSol
  have hx : ∃ c, p c := ⟨c, h⟩
  rw [dif_pos hx]
  exact Finset.mem_singleton.2 (hu _ _ h hx.choose_spec)

/-! ### Random linear combinations -/

/-- The challenge makes the combination vanish everywhere although the polynomial it multiplies does not. -/
def FoldBad (M : Nat) (zs : List (Nat → F)) (pre : List F) (c : F) : Prop :=
  (∃ z, zs[pre.length]? = some z ∧ ∃ b < M, z b ≠ 0) ∧ ∀ b < M, dot (pre ++ [c]) (zs.map (· b)) = 0

theorem dot_snoc (pre : List F) (c : F) (vs : List F) (v : F) (h : vs[pre.length]? = some v) : dot (pre ++ [c]) vs = dot pre vs + c * v := by
  induction pre generalizing vs with
  | nil =>
    rcases vs with _ | ⟨w, vs⟩
    · simp at h
    · simp at h; subst h; simp [dot]
  | cons a pre ih =>
    rcases vs with _ | ⟨w, vs⟩
    · simp at h
    · rw [List.cons_append, dot_cons, dot_cons, ih vs (by simpa using h)]
      ring

theorem dot_append_right (cs vs ws : List F) (h : cs.length ≤ vs.length) : dot cs (vs ++ ws) = dot cs vs := by
  induction cs generalizing vs with
  | nil => simp [dot_nil_left]
  | cons c cs ih =>
    rcases vs with _ | ⟨v, vs⟩
    · simp at h
    · rw [List.cons_append, dot_cons, dot_cons, ih vs (by simpa using h)]

theorem foldBad_unique {M : Nat} {zs : List (Nat → F)} {pre : List F} {c c' : F} (h : FoldBad M zs pre c) (h' : FoldBad M zs pre c') : c = c' := by
  obtain ⟨⟨z, hz, b, hb, hne⟩, h1⟩ := h
  have h2 := h'.2 b hb
  have h1 := h1 b hb
  have e : (zs.map (· b))[pre.length]? = some (z b) := by rw [List.getElem?_map, hz]; rfl
  rw [dot_snoc _ _ _ _ e] at h1 h2
  have : (c - c') * z b = 0 := by linear_combination h1 - h2
  rcases mul_eq_zero.1 this with h | h
  · exact sub_eq_zero.1 h
  · exact absurd h hne

theorem fold_alive (M : Nat) (zs : List (Nat → F)) (cs : List F) (hl : cs.length = zs.length) (h : ∃ z ∈ zs, ∃ b < M, z b ≠ 0)
    (hb : ∀ k c, cs[k]? = some c → ¬ FoldBad M zs (cs.take k) c) : ∃ b < M, dot cs (zs.map (· b)) ≠ 0 := by
  induction zs using List.reverseRecOn generalizing cs with
  | nil => simp at h
  | append_singleton zs z ih =>
    rcases List.eq_nil_or_concat' cs with rfl | ⟨cs, c, rfl⟩
    · simp at hl
    · have hl : cs.length = zs.length := by simpa using hl
      by_cases hz : ∃ b < M, z b ≠ 0
      · have := hb cs.length c (by simp)
        by_contra hc
        apply this
        refine ⟨⟨z, by simp [hl], hz⟩, fun b hbM => ?_⟩
        rw [List.take_left' rfl]
        by_contra hd
        exact hc ⟨b, hbM, by simpa using hd⟩
      · push Not at hz
        obtain ⟨b, hbM, hne⟩ := ih cs hl (by
          obtain ⟨w, hw, h⟩ := h
          rcases List.mem_append.1 hw with hw | hw
          · exact ⟨w, hw, h⟩
          · obtain rfl : w = z := by simpa using hw
            obtain ⟨b, hb, hn⟩ := h
            exact absurd (hz b hb) hn) (fun k c' hk hbad => by
          have hk' : k < cs.length := by
            by_contra hn
            rw [List.getElem?_eq_none (by omega)] at hk
            simp at hk
          apply hb k c' (by rw [List.getElem?_append_left hk']; exact hk)
          obtain ⟨⟨w, hw, h1⟩, h2⟩ := hbad
          rw [List.take_append_of_le_length hk'.le]
          refine ⟨⟨w, by rw [List.getElem?_append_left (by simp; omega)]; exact hw, h1⟩, fun b hb => ?_⟩
          rw [List.map_append, dot_append_right _ _ _ (by simp; omega)]
          exact h2 b hb)
        refine ⟨b, hbM, ?_⟩
        rw [List.map_append, dot_snoc _ _ _ (z b) (by simp [hl]), hz b hbM, mul_zero, add_zero, dot_append_right _ _ _ (by simp [hl])]
        exact hne

/-! ### Evaluating at a random point -/

/-- The coordinate makes the partially evaluated polynomial vanish everywhere although it did not. -/
def EvalBad (Z : Nat → F) (N : Nat) (pre : List F) (c : F) : Prop :=
  pre.length < N ∧ (∃ b < 2 ^ (N - pre.length), mle Z (pre ++ boolPt (N - pre.length) b) ≠ 0) ∧
    ∀ b < 2 ^ (N - pre.length - 1), mle Z (pre ++ c :: boolPt (N - pre.length - 1) b) = 0

theorem evalBad_unique {Z : Nat → F} {N : Nat} {pre : List F} {c c' : F} (h : EvalBad Z N pre c) (h' : EvalBad Z N pre c') : c = c' := by
  obtain ⟨hl, ⟨b, hb, hne⟩, h1⟩ := h
  by_contra hcc
  apply hne
  obtain ⟨k, hk⟩ : ∃ k, N - pre.length = k + 1 := ⟨N - pre.length - 1, by omega⟩
  rw [hk] at hb h1 ⊢
  have h2 := h'.2.2
  rw [hk] at h2
  simp only [Nat.add_sub_cancel] at h1 h2
  rw [boolPt_succ]
  have hb2 : b / 2 < 2 ^ k := by rw [pow_succ] at hb; omega
  have e1 := h1 _ hb2
  have e2 := h2 _ hb2
  obtain ⟨u, v, e⟩ := mle_affine Z pre (boolPt k (b / 2))
  rw [e] at e1 e2 ⊢
  have hv : v = 0 := by
    have : v * (c - c') = 0 := by linear_combination e1 - e2
    rcases mul_eq_zero.1 this with h | h
    · exact h
    · exact absurd (sub_eq_zero.1 h) hcc
  rw [hv] at e1 ⊢
  simpa using e1

theorem eval_alive (Z : Nat → F) (N : Nat) (r : List F) (hr : r.length = N) (h : ∃ b < 2 ^ N, Z b ≠ 0)
    (hb : ∀ k c, r[k]? = some c → ¬ EvalBad Z N (r.take k) c) : mle Z r ≠ 0 := by
  have key : ∀ k ≤ N, ∃ b < 2 ^ (N - k), mle Z (r.take k ++ boolPt (N - k) b) ≠ 0 := by
    intro k
    induction k with
    | zero =>
      intro _
      obtain ⟨b, hb, hne⟩ := h
      exact ⟨b, by simpa using hb, by simpa [mle_boolPt Z N b hb] using hne⟩
    | succ k ih =>
      intro hk
      have hkr : k < r.length := by omega
      have hn := hb k r[k] (List.getElem?_eq_getElem hkr)
      have hlt : (r.take k).length = k := by simp; omega
      by_contra hc
      push Not at hc
      apply hn
      refine ⟨by omega, by rw [hlt]; exact ih (by omega), fun b hb => ?_⟩
      rw [hlt] at hb ⊢
      have := hc b (by rw [show N - (k + 1) = N - k - 1 by omega]; exact hb)
      rw [List.take_succ_eq_append_getElem hkr, List.append_assoc, List.singleton_append] at this
      rw [show N - k - 1 = N - (k + 1) by omega]
      exact this
  obtain ⟨b, hb, hne⟩ := key N le_rfl
  rw [List.take_of_length_le (by omega), Nat.sub_self, boolPt_zero, List.append_nil] at hne
  exact hne

/-! ### The sumcheck -/

/-- The polynomial a message stands for. -/
noncomputable def messagePolyOf (m : List F) : F[X] := by
  classical exact if h : ∃ q, IsMessagePoly (m.length - 1) m q then h.choose else 0

/-- The polynomial an honest message would stand for. -/
noncomputable def roundPolyOf (f : List F → F) (n d : Nat) (pre : List F) : F[X] := by
  classical exact if h : ∃ q, IsRoundPoly f n d pre q then h.choose else 0

theorem messagePolyOf_degree (m : List F) : (messagePolyOf m).natDegree ≤ m.length - 1 := by
  unfold messagePolyOf
  split
  · rename_i h; exact h.choose_spec.1
  · simp

theorem roundPolyOf_degree (f : List F → F) (n d : Nat) (pre : List F) : (roundPolyOf f n d pre).natDegree ≤ d := by
  unfold roundPolyOf
  split
  · rename_i h; exact h.choose_spec.1
  · simp

theorem messagePolyOf_eq {d : Nat} (hn : NatsNonzero F d) {m : List F} {q : F[X]} (h : IsMessagePoly d m q) : messagePolyOf m = q := by
  have hd : m.length - 1 = d := by rw [h.2.1]; omega
  unfold messagePolyOf
  have hx : ∃ q, IsMessagePoly (m.length - 1) m q := ⟨q, hd ▸ h⟩
  rw [dif_pos hx]
  exact messagePoly_unique hn (hd ▸ hx.choose_spec) h

theorem roundPolyOf_spec {f : List F → F} {n d : Nat} (hf : IndivDegree f n d) (pre : List F) (hpre : pre.length < n) :
    IsRoundPoly f n d pre (roundPolyOf f n d pre) := by
  unfold roundPolyOf
  rw [dif_pos (exists_roundPoly hf pre hpre)]
  exact (exists_roundPoly hf pre hpre).choose_spec

/-- The challenges at which a wrong message agrees with the right one. -/
noncomputable def roundBad (f : List F → F) (n d : Nat) (pre m : List F) : Finset F := by
  classical exact (messagePolyOf m - roundPolyOf f n d pre).roots.toFinset

theorem roundBad_card (f : List F → F) (n d : Nat) (pre m : List F) : (roundBad f n d pre m).card ≤ max (m.length - 1) d := by
  classical
  refine (Multiset.toFinset_card_le _).trans ((card_roots' _).trans ((natDegree_sub_le _ _).trans ?_))
  exact max_le_max (messagePolyOf_degree m) (roundPolyOf_degree f n d pre)

theorem sumcheck_alive {f : List F → F} {n d D : Nat} (hf : IndivDegree f n D) (hn : NatsNonzero F d) (ms : List (List F)) (cs pre : List F)
    (hl : pre.length + cs.length = n) (claim : F) (hacc : Accepted d claim ms cs (f (pre ++ cs)))
    (hb : ∀ k m c, ms[k]? = some m → cs[k]? = some c → c ∉ roundBad f n D (pre ++ cs.take k) m) : claim = partialSum f n pre := by
  classical
  induction cs generalizing ms pre claim with
  | nil =>
    cases ms with
    | nil =>
      simp only [Accepted, List.append_nil] at hacc
      rw [partialSum_full f n pre (by simpa using hl)]
      exact hacc.symm
    | cons m ms => simp [Accepted] at hacc
  | cons c cs ih =>
    cases ms with
    | nil => simp [Accepted] at hacc
    | cons m ms =>
      simp only [List.length_cons] at hl
      simp only [Accepted] at hacc
      obtain ⟨q, hq, hsum, hrest⟩ := hacc
      have hg := roundPolyOf_spec hf pre (by omega)
      have h0 := hb 0 m c rfl rfl
      have h1 := ih ms (pre ++ [c]) (by simp; omega) (q.eval c) (by simpa using hrest) (fun k m' c' hm hc => by
        have := hb (k + 1) m' c' (by simpa using hm) (by simpa using hc)
        simpa using this)
      rw [← hg.2] at h1
      have hqg : q = roundPolyOf f n D pre := by
        by_contra hne
        apply h0
        unfold roundBad
        rw [List.take_zero, List.append_nil, messagePolyOf_eq hn hq, Multiset.mem_toFinset, mem_roots (sub_ne_zero.2 hne), IsRoot.def, eval_sub, h1, sub_self]
      rw [← hsum, hqg, hg.2, hg.2, ← partialSum_step f n pre (by omega)]

/-! ### All challenges of a verification -/

/-- The folded polynomial. -/
def foldedAt (zs vs : List (List F → F)) (cs r ds : List F) (x : List F) : F := foldedValue cs ds (zs.map (· x)) (vs.map (· x)) (eqPoly x r)

/-- By how much the sum claims are wrong, the folded zero claim last. -/
def defects (N : Nat) (zs : List (List F → F)) (vs : List ((List F → F) × F)) (cs r : List F) : List F :=
  (vs.map fun v => cubeSum N (fun b => v.1 (boolPt N b)) - v.2) ++ [mle (fun b => dot cs (zs.map (· (boolPt N b)))) r]

/-- The exceptional values of the next challenge, given the challenges and messages so far. -/
noncomputable def nextBad (N D : Nat) (zs : List (List F → F)) (vs : List ((List F → F) × F)) (chs : List F) (msgs : List (List F)) : Finset F :=
  let nz := zs.length
  let ns := vs.length + 1
  if chs.length < nz then oneSol (FoldBad (2 ^ N) (zs.map fun z b => z (boolPt N b)) chs)
  else if chs.length < nz + N then oneSol (EvalBad (fun b => dot (chs.take nz) (zs.map (· (boolPt N b)))) N (chs.drop nz))
  else if chs.length < nz + N + ns then
    oneSol (FoldBad 1 ((defects N zs vs (chs.take nz) ((chs.drop nz).take N)).map fun e _ => e) (chs.drop (nz + N)))
  else roundBad (foldedAt zs (vs.map (·.1)) (chs.take nz) ((chs.drop nz).take N) ((chs.drop (nz + N)).take ns)) N (D + 1) (chs.drop (nz + N + ns)) (msgs.getLastD [])

theorem nextBad_card_one (N D : Nat) (zs : List (List F → F)) (vs : List ((List F → F) × F)) (chs : List F) (msgs : List (List F))
    (h : chs.length < zs.length + N + (vs.length + 1)) : (nextBad N D zs vs chs msgs).card ≤ 1 := by
  unfold nextBad
  simp only
  split_ifs
  · exact oneSol_card _
  · exact oneSol_card _
  · exact oneSol_card _

theorem nextBad_card (N D : Nat) (zs : List (List F → F)) (vs : List ((List F → F) × F)) (chs : List F) (msgs : List (List F))
    (h : zs.length + N + (vs.length + 1) ≤ chs.length) : (nextBad N D zs vs chs msgs).card ≤ max ((msgs.getLastD []).length - 1) (D + 1) := by
  unfold nextBad
  simp only
  rw [if_neg (by omega), if_neg (by omega), if_neg (by omega)]
  exact roundBad_card _ _ _ _ _

theorem indivDegree_dot (n d : Nat) (fs : List (List F → F)) (cs : List F) (h : ∀ f ∈ fs, IndivDegree f n d) :
    IndivDegree (fun x => dot cs (fs.map (· x))) n d := by
  induction fs generalizing cs with
  | nil =>
    have : (fun x : List F => dot cs (([] : List (List F → F)).map (· x))) = fun _ => 0 := by funext x; simp [dot_nil_right]
    rw [this]
    exact indivDegree_const 0 n d
  | cons f fs ih =>
    rcases cs with _ | ⟨c, cs⟩
    · have : (fun x : List F => dot [] ((f :: fs).map (· x))) = fun _ => 0 := by funext x; simp [dot_nil_left]
      rw [this]
      exact indivDegree_const 0 n d
    · have : (fun x : List F => dot (c :: cs) ((f :: fs).map (· x))) = fun x => c * f x + dot cs (fs.map (· x)) := by
        funext x; rw [List.map_cons, dot_cons]
      rw [this]
      refine indivDegree_add ?_ (ih cs fun f hf => h f (List.mem_cons_of_mem _ hf))
      have := indivDegree_mul (indivDegree_const c n 0) (h f List.mem_cons_self)
      rwa [Nat.zero_add] at this

theorem indivDegree_eqPoly (n : Nat) (r : List F) (hr : r.length = n) : IndivDegree (fun x => eqPoly x r) n 1 :=
  indivDegree_congr (g := mle (eqWeight r)) (fun x hx => (mle_eqWeight r x (hx.trans hr.symm)).symm) (indivDegree_mle _ _)

theorem indivDegree_foldedAt (N D : Nat) (zs vs : List (List F → F)) (cs r ds : List F) (hr : r.length = N) (hz : ∀ z ∈ zs, IndivDegree z N D)
    (hv : ∀ v ∈ vs, IndivDegree v N D) : IndivDegree (foldedAt zs vs cs r ds) N (D + 1) := by
  have : foldedAt zs vs cs r ds = fun x => dot ds ((vs ++ [fun x => dot cs (zs.map (· x)) * eqPoly x r]).map (· x)) := by
    funext x
    simp [foldedAt, foldedValue]
  rw [this]
  apply indivDegree_dot
  intro f hf
  rcases List.mem_append.1 hf with hf | hf
  · exact indivDegree_mono (hv f hf) (by omega)
  · obtain rfl : f = _ := by simpa using hf
    exact indivDegree_mul (indivDegree_dot N D zs cs hz) (indivDegree_eqPoly N r hr)

/-- If the sumcheck for the folded claims is accepted, its final value is right and no challenge is exceptional, all claims are true. -/
theorem verification_core {N D d : Nat} {zs : List (List F → F)} {vs : List ((List F → F) × F)} (hz : ∀ z ∈ zs, IndivDegree z N D)
    (hv : ∀ v ∈ vs, IndivDegree v.1 N D) (hn : NatsNonzero F d) {cs r ds pt : List F} {ms : List (List F)} (h1 : cs.length = zs.length) (h2 : r.length = N)
    (h3 : ds.length = vs.length + 1) (h4 : pt.length = N) (h5 : ms.length = N)
    (hacc : Accepted d (foldedSum ds (vs.map (·.2))) ms pt (foldedAt zs (vs.map (·.1)) cs r ds pt))
    (hb : ∀ k c, (cs ++ (r ++ (ds ++ pt)))[k]? = some c →
      c ∉ nextBad N D zs vs ((cs ++ (r ++ (ds ++ pt))).take k) (ms.take (k + 1 - (zs.length + N + (vs.length + 1))))) :
    AllClaims N (zs.map fun z b => z (boolPt N b)) (vs.map fun v => (fun b => v.1 (boolPt N b), v.2)) := by
  -- the challenges stage by stage
  have b1 : ∀ k c, cs[k]? = some c → ¬ FoldBad (2 ^ N) (zs.map fun z b => z (boolPt N b)) (cs.take k) c := by
    intro k c hk hbad
    have hk' : k < cs.length := (List.getElem?_eq_some_iff.1 hk).1
    apply hb k c (by rw [List.getElem?_append_left hk']; exact hk)
    rw [List.take_append_of_le_length hk'.le]
    unfold nextBad
    simp only
    rw [if_pos (by simp; omega)]
    exact mem_oneSol (fun _ _ => foldBad_unique) hbad
  have b2 : ∀ k c, r[k]? = some c → ¬ EvalBad (fun b => dot cs (zs.map (· (boolPt N b)))) N (r.take k) c := by
    intro k c hk hbad
    have hk' : k < r.length := (List.getElem?_eq_some_iff.1 hk).1
    apply hb (cs.length + k) c (by rw [List.getElem?_append_right (by omega), Nat.add_sub_cancel_left, List.getElem?_append_left hk']; exact hk)
    rw [List.take_length_add_append, List.take_append_of_le_length hk'.le]
    unfold nextBad
    simp only
    rw [if_neg (by simp; omega), if_pos (by simp; omega), List.take_left' h1, List.drop_left' h1]
    exact mem_oneSol (fun _ _ => evalBad_unique) hbad
  have b3 : ∀ k c, ds[k]? = some c → ¬ FoldBad 1 ((defects N zs vs cs r).map fun e _ => e) (ds.take k) c := by
    intro k c hk hbad
    have hk' : k < ds.length := (List.getElem?_eq_some_iff.1 hk).1
    apply hb (cs.length + (r.length + k)) c (by
      rw [List.getElem?_append_right (by omega), Nat.add_sub_cancel_left, List.getElem?_append_right (by omega), Nat.add_sub_cancel_left,
        List.getElem?_append_left hk']
      exact hk)
    rw [List.take_length_add_append, List.take_length_add_append, List.take_append_of_le_length hk'.le]
    unfold nextBad
    simp only
    rw [if_neg (by simp; omega), if_neg (by simp; omega), if_pos (by simp; omega), List.take_left' h1, List.drop_left' h1, List.take_left' h2,
      ← List.drop_drop, List.drop_left' h1, List.drop_left' h2]
    exact mem_oneSol (fun _ _ => foldBad_unique) hbad
  have b4 : ∀ k m c, ms[k]? = some m → pt[k]? = some c → c ∉ roundBad (foldedAt zs (vs.map (·.1)) cs r ds) N (D + 1) ([] ++ pt.take k) m := by
    intro k m c hm hk hbad
    have hk' : k < pt.length := (List.getElem?_eq_some_iff.1 hk).1
    apply hb (cs.length + (r.length + (ds.length + k))) c (by
      rw [List.getElem?_append_right (by omega), Nat.add_sub_cancel_left, List.getElem?_append_right (by omega), Nat.add_sub_cancel_left,
        List.getElem?_append_right (by omega), Nat.add_sub_cancel_left]
      exact hk)
    rw [List.take_length_add_append, List.take_length_add_append, List.take_length_add_append]
    unfold nextBad
    simp only
    have e1 : (cs ++ (r ++ (ds ++ pt.take k))).drop (zs.length + N) = ds ++ pt.take k := by rw [← List.drop_drop, List.drop_left' h1, List.drop_left' h2]
    have e2 : (cs ++ (r ++ (ds ++ pt.take k))).drop (zs.length + N + (vs.length + 1)) = pt.take k := by
      rw [← List.drop_drop (i := vs.length + 1) (j := zs.length + N), e1, List.drop_left' h3]
    rw [if_neg (by simp; omega), if_neg (by simp; omega), if_neg (by simp; omega), List.take_left' h1, List.drop_left' h1, List.take_left' h2,
      e1, e2, List.take_left' h3,
      show cs.length + (r.length + (ds.length + k)) + 1 - (zs.length + N + (vs.length + 1)) = k + 1 by omega]
    have : (ms.take (k + 1)).getLastD [] = m := by
      obtain ⟨hk2, rfl⟩ := List.getElem?_eq_some_iff.1 hm
      rw [List.take_succ_eq_append_getElem hk2, List.getLastD_eq_getLast?, List.getLast?_append_of_ne_nil _ (by simp)]
      rfl
    rw [this]
    exact hbad
  have hf := indivDegree_foldedAt N D zs (vs.map (·.1)) cs r ds h2 hz (by
    intro v hvm
    obtain ⟨w, hw, rfl⟩ := List.mem_map.1 hvm
    exact hv w hw)
  have hsum := sumcheck_alive hf hn ms pt [] (by simpa using h4) _ hacc b4
  have hfold : FoldedClaim N (zs.map fun z b => z (boolPt N b)) (vs.map fun v => (fun b => v.1 (boolPt N b), v.2)) cs r ds := by
    unfold FoldedClaim
    simp only [List.map_map, Function.comp_def]
    rw [hsum]
    simp [partialSum, foldedAt, Function.comp_def]
  rw [folded_iff _ _ _ _ _ _ h2] at hfold
  simp only [List.map_map, Function.comp_def] at hfold
  have hd0 : dot ds (defects N zs vs cs r) = 0 := hfold
  have hdef : ∀ e ∈ defects N zs vs cs r, e = 0 := by
    intro e he
    by_contra hne
    obtain ⟨b, -, h⟩ := fold_alive 1 ((defects N zs vs cs r).map fun e _ => e) ds (by simp [defects, h3]) ⟨_, List.mem_map.2 ⟨e, he, rfl⟩, 0, by norm_num, hne⟩ b3
    apply h
    simpa [List.map_map, Function.comp_def] using hd0
  have hZ : ∀ b < 2 ^ N, dot cs (zs.map (· (boolPt N b))) = 0 := by
    intro b hb'
    by_contra hne
    exact eval_alive _ N r h2 ⟨b, hb', hne⟩ b2 (hdef _ (by simp [defects]))
  refine ⟨fun z hzm b hb' => ?_, fun v hvm => ?_⟩
  · by_contra hne
    obtain ⟨b', hb'', h⟩ := fold_alive (2 ^ N) (zs.map fun z b => z (boolPt N b)) cs (by simp [h1]) ⟨z, hzm, b, hb', hne⟩ b1
    apply h
    rw [List.map_map]
    exact hZ b' hb''
  · obtain ⟨w, hw, rfl⟩ := List.mem_map.1 hvm
    exact sub_eq_zero.1 (hdef _ (List.mem_append_left _ (List.mem_map.2 ⟨w, hw, rfl⟩)))

end Zksql
