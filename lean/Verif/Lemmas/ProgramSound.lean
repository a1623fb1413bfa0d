import Verif.Props.TableChecks
import Verif.Props.SetOps
import Verif.Props.SetChecks
import Verif.Props.BagChecks
import Verif.Spec.ProgramSound
/-! Runs of programs against a prover that is not trusted. -/
set_option linter.unusedSectionVars false
namespace Zksql
open Spec
variable {F C B K : Type} [Field F] [DecidableEq F]
variable {E : Env F C} {P : C → List F → F} {N : Nat} {s s1 s' : VSt F C B}

theorem setDiff_weights {a b l m range : BagComm} {bm : Nat} (h2 : (2 : F) ≠ 0) (hn : NatsNonzero F (2 ^ (max l.numVars b.numVars + 1))) (hs : Sane s)
    (ka : KnownBag s a) (kb : KnownBag s b) (kl : KnownBag s l) (km : KnownBag s m) (kbm : Known s bm) (kr : Known s range.poly) :
    Snd (fun H => SetDiff.verify (E.withH H) a b l m bm range) s N
      (setDisjointBounds l.numVars b.numVars range.numVars ++ ([2 ^ l.numVars + 2 ^ m.numVars + 2 ^ a.numVars] ++ [2 ^ m.numVars + 2 ^ b.numVars])) fun P =>
        ∀ (ta tb tl tm : BagTab F) (μ : Nat → F), HoldsBag s P N a ta → HoldsBag s P N b tb → HoldsBag s P N l tl → HoldsBag s P N m tm → Vals s P N bm μ →
            (∀ z, tl.weight (fun _ => 1) z + tm.weight (fun _ => 1) z = ta.weight (fun _ => 1) z) ∧ ∀ z, tm.weight (fun _ => 1) z ≠ 0 → tb.Active z := by
  intro β K b2 Concl hK
  unfold SetDiff.verify
  simp only [Act.bind_assoc]
  rw [List.append_assoc, List.append_assoc]
  refine (setDisjoint_tabs (N := N) h2 hn hs kl kb kr).bind fun _ s1 L1 => ?_
  refine (bagSum_tabs (N := N) h2 L1.sane (L1.knownBag kl) (L1.knownBag km) (L1.knownBag ka)).bind fun _ s2 L2 => ?_
  have L12 := L1.trans L2
  refine (inclusionAdvice_tabs (N := N) h2 L2.sane (L12.knownBag km) (L12.knownBag kb) (L12.known kbm)).bind fun _ s3 L3 => ?_
  refine (hK () s3 (L12.trans L3)).mono L3.sane fun P _ hC i3 i2 i1 => hC fun ta tb tl tm μ va vb vl vm vμ => ⟨?_, ?_⟩
  · exact i2 tl tm ta ((L1.holdsBag hs kl).2 vl) ((L1.holdsBag hs km).2 vm) ((L1.holdsBag hs ka).2 va)
  · exact i3 tm tb μ ((L12.holdsBag hs km).2 vm) ((L12.holdsBag hs kb).2 vb) ((L12.vals hs kbm).2 vμ)

theorem setIntersect_weights {a b l m r range : BagComm} (h2 : (2 : F) ≠ 0) (hn : NatsNonzero F (2 ^ (max l.numVars r.numVars + 1))) (hs : Sane s)
    (ka : KnownBag s a) (kb : KnownBag s b) (kl : KnownBag s l) (km : KnownBag s m) (krr : KnownBag s r) (kr : Known s range.poly) :
    Snd (fun H => SetIntersect.verify (E.withH H) a b l m r range) s N
      ([2 ^ l.numVars + 2 ^ m.numVars + 2 ^ a.numVars] ++ ([2 ^ m.numVars + 2 ^ r.numVars + 2 ^ b.numVars] ++
        setDisjointBounds l.numVars r.numVars range.numVars)) fun P =>
        ∀ ta tb tl tm tr : BagTab F, HoldsBag s P N a ta → HoldsBag s P N b tb → HoldsBag s P N l tl → HoldsBag s P N m tm → HoldsBag s P N r tr →
            (∀ z, tl.weight (fun _ => 1) z + tm.weight (fun _ => 1) z = ta.weight (fun _ => 1) z) ∧
            ∀ z, tm.weight (fun _ => 1) z + tr.weight (fun _ => 1) z = tb.weight (fun _ => 1) z := by
  intro β K b2 Concl hK
  unfold SetIntersect.verify
  simp only [Act.bind_assoc]
  rw [List.append_assoc, List.append_assoc]
  refine (bagSum_tabs (N := N) h2 hs kl km ka).bind fun _ s1 L1 => ?_
  refine (bagSum_tabs (N := N) h2 L1.sane (L1.knownBag km) (L1.knownBag krr) (L1.knownBag kb)).bind fun _ s2 L2 => ?_
  have L12 := L1.trans L2
  refine (setDisjoint_tabs (N := N) h2 hn L2.sane (L12.knownBag kl) (L12.knownBag krr) (L12.known kr)).bind fun _ s3 L3 => ?_
  refine (hK () s3 (L12.trans L3)).mono L3.sane fun P _ hC i3 i2 i1 => hC fun ta tb tl tm tr va vb vl vm vr => ⟨?_, ?_⟩
  · exact i1 tl tm ta vl vm va
  · exact i2 tm tr tb ((L1.holdsBag hs km).2 vm) ((L1.holdsBag hs krr).2 vr) ((L1.holdsBag hs kb).2 vb)

/-- The verifier's column has this size and these contents. -/
def VOk (s : VSt F C B) (P : C → List F → F) (N : Nat) (φ : K → TPoly) (W : K → Column F) (k : K) : Prop :=
  (φ k).numVars = (W k).nv ∧ Holds s P N (φ k).id (W k).nv (W k).val

section
variable {φ : K → TPoly} {W W0 : K → Column F}

theorem VOk.bag {b : K × K} (h1 : VOk s P N φ W b.1) (h2 : VOk s P N φ W b.2) (he : (φ b.2).numVars = (φ b.1).numVars) :
    HoldsBag s P N (bagCommOf (b.map φ φ)) (bagTab W b) := by
  refine ⟨h1.1, h1.2, ?_⟩
  have := h2.2
  rw [← h2.1, he, h1.1] at this
  exact this

theorem VOk.resize {k : K} {n : Nat} (h : VOk s P N φ W k) (he : (φ k).numVars = n) : Holds s P N (φ k).id n (W k).val := by
  have := h.2
  rw [← h.1, he] at this
  exact this

theorem VOk.range {k : K × K} (h : VOk s P N φ W k.1) {n M : Nat} (hM : Small (W k.1) n M) : HoldsRange s P N (bagCommOf (k.map φ φ)) M := by
  refine ⟨(W k.1).val, h.resize rfl, fun j hj => hM.2 j ?_⟩
  rw [← h.1]; exact hj

end


theorem Check.fits_congr {W W' : K → Column F} (h : ∀ k, (W k).nv = (W' k).nv) {c : Check K} (hf : c.Fits N W) : c.Fits N W' := by
  unfold Check.Fits at hf ⊢
  cases c <;> simpa only [Spec.Even, Spec.EvenTab, h] using hf

theorem Check.soundBounds_congr {W W' : K → Column F} (h : ∀ k, (W k).nv = (W' k).nv) (c : Check K) : c.soundBounds N W = c.soundBounds N W' := by
  cases c <;> simp only [Check.soundBounds, h]

/-- Columns of the sizes of the handles. -/
def sizes (F : Type) [Zero F] (φ : K → TPoly) (k : K) : Column F := ⟨(φ k).numVars, fun _ => 0⟩

theorem holdsSide_of {φ : K → TPoly} {W : K → Column F} : ∀ {l : List ((K × K) × K)}, (∀ e ∈ l, VOk s P N φ W e.1.1 ∧ VOk s P N φ W e.1.2 ∧ VOk s P N φ W e.2) →
    (∀ e ∈ l, (φ e.1.2).numVars = (φ e.1.1).numVars ∧ (φ e.2).numVars = (φ e.1.1).numVars) →
    HoldsSide s P N (l.map fun e => bagCommOf (e.1.map φ φ)) (l.map fun e => (φ e.2).id) (l.map fun e => (bagTab W e.1, (W e.2).val))
  | [], _, _ => trivial
  | e :: l, h, hn => by
    obtain ⟨h1, h2, h3⟩ := h e (by simp)
    obtain ⟨n1, n2⟩ := hn e (by simp)
    refine ⟨VOk.bag h1 h2 n1, ?_, holdsSide_of (fun e he => h e (by simp [he])) fun e he => hn e (by simp [he])⟩
    have := h3.resize n2
    rw [h1.1] at this
    exact this

theorem holdsCols_of {φ : K → TPoly} {W : K → Column F} {n : Nat} : ∀ {l : List K}, (∀ k ∈ l, VOk s P N φ W k) → (∀ k ∈ l, (φ k).numVars = n) →
    HoldsCols s P N n ((l.map φ).map (·.id)) (l.map fun k => (W k).val)
  | [], _, _ => trivial
  | k :: l, h, hn => ⟨(h k (by simp)).resize (hn k (by simp)), holdsCols_of (fun e he => h e (by simp [he])) fun e he => hn e (by simp [he])⟩

theorem holdsTab_of {φ : K → TPoly} {W : K → Column F} {t : List K × K} (h : ∀ k ∈ t.1, VOk s P N φ W k) (h' : VOk s P N φ W t.2) (hn : ∀ k ∈ t.1, (φ k).numVars = (φ t.2).numVars) :
    HoldsTab s P N (tableCommOf (t.1.map φ, φ t.2)) (tabData W t) := by
  refine ⟨h'.1, h'.2, ?_⟩
  have := holdsCols_of h hn
  rw [h'.1] at this
  exact this

theorem knownTab_of {φ : K → TPoly} {t : List K × K} (h : ∀ k ∈ t.1, Known s (φ k).id) (h' : Known s (φ t.2).id) : KnownTab s (tableCommOf (t.1.map φ, φ t.2)) := by
  refine ⟨fun c hc => ?_, h'⟩
  simp only [tableCommOf, sameTab, tableOf, List.map_map, List.mem_map, Function.comp] at hc
  obtain ⟨k, h1, rfl⟩ := hc
  exact h k h1

theorem holdsAggs_of {φ : K → TPoly} {W : K → Column F} {n : Nat} : ∀ {l : List (Nat × AggType × K)}, (∀ e ∈ l, VOk s P N φ W e.2.2) → (∀ e ∈ l, (φ e.2.2).numVars = n) →
    HoldsAggs s P N n ((l.map fun e => (e.1, e.2.1, φ e.2.2)).map fun e => (e.1, e.2.1, e.2.2.id)) (l.map fun e => (e.1, e.2.1, (W e.2.2).val))
  | [], _, _ => trivial
  | e :: l, h, hn => ⟨rfl, rfl, (h e (by simp)).resize (hn e (by simp)), holdsAggs_of (fun e he => h e (by simp [he])) fun e he => hn e (by simp [he])⟩

/-- Every check. -/
theorem check_snd {φ : K → TPoly} {c : Check K} (h2 : (2 : F) ≠ 0) (hn : NatsNonzero F (2 ^ N)) (hs : Sane s) (hk : ∀ k ∈ c.names, Known s (φ k).id)
    (hf : c.Fits N (sizes F φ)) :
    Snd (fun H => (c.map φ).verify (E.withH H)) s N (c.soundBounds N (sizes F φ)) fun P => ∀ W : K → Column F, (∀ k ∈ c.names, VOk s P N φ W k) → c.Means N W := by
  obtain ⟨hN, hf⟩ := hf
  have nn : ∀ n ≤ N, NatsNonzero F (2 ^ n) := fun n h => natsNonzero_mono hn (Nat.pow_le_pow_right (by norm_num) h)
  cases c with
  | multiset fs gs =>
    have m : ∀ e ∈ fs ++ gs, ∀ k ∈ [e.1.1, e.1.2, e.2], k ∈ Check.names (.multiset fs gs) := fun e hm k hk' => by
      unfold Check.names; exact List.mem_flatMap.2 ⟨e, hm, hk'⟩
    have := (multiset_snd (E := E) (N := N) (s := s) (fxs := fs.map fun e => bagCommOf (e.1.map φ φ)) (gxs := gs.map fun e => bagCommOf (e.1.map φ φ))
      (mfxs := fs.map fun e => (φ e.2).id) (mgxs := gs.map fun e => (φ e.2).id) h2 hs
      (by
        intro b hb
        rw [← List.map_append] at hb
        obtain ⟨e, he, rfl⟩ := List.mem_map.1 hb
        exact ⟨hk _ (m e he e.1.1 (by simp)), hk _ (m e he e.1.2 (by simp))⟩)
      (by
        intro b hb
        rw [← List.map_append] at hb
        obtain ⟨e, he, rfl⟩ := List.mem_map.1 hb
        exact hk _ (m e he e.2 (by simp)))).mono hs
      (D2 := fun P => ∀ W : K → Column F, (∀ k ∈ Check.names (.multiset fs gs), VOk s P N φ W k) → Check.Means N W (.multiset fs gs)) fun P _ h W hW => by
        refine h _ _ (holdsSide_of (φ := φ) (W := W) (l := fs) (fun e he => ?_) fun e he => ?_) (holdsSide_of (φ := φ) (W := W) (l := gs) (fun e he => ?_) fun e he => ?_)
        · have := m e (List.mem_append_left _ he)
          exact ⟨hW _ (this e.1.1 (by simp)), hW _ (this e.1.2 (by simp)), hW _ (this e.2 (by simp))⟩
        · exact hf.2.2 e (List.mem_append_left _ he)
        · have := m e (List.mem_append_right _ he)
          exact ⟨hW _ (this e.1.1 (by simp)), hW _ (this e.1.2 (by simp)), hW _ (this e.2 (by simp))⟩
        · exact hf.2.2 e (List.mem_append_right _ he)
    have hb : Check.soundBounds N (sizes F φ) (.multiset fs gs) = [entries (fs.map fun e => bagCommOf (e.1.map φ φ)) + entries (gs.map fun e => bagCommOf (e.1.map φ φ))] := by
      unfold entries
      show [((fs ++ gs).map fun e => 2 ^ (sizes F φ e.1.1).nv).sum] = _
      rw [List.map_append, List.sum_append, List.map_map, List.map_map]
      rfl
    rw [hb]
    simpa [Check.map, Check.verify, List.map_map, Function.comp_def, Prod.map] using this
  | bagEq f g =>
    have kf : KnownBag s (bagCommOf (f.map φ φ)) := ⟨hk f.1 (by simp [Check.names]), hk f.2 (by simp [Check.names])⟩
    have kg : KnownBag s (bagCommOf (g.map φ φ)) := ⟨hk g.1 (by simp [Check.names]), hk g.2 (by simp [Check.names])⟩
    refine (bagEq_snd (E := E) (N := N) h2 hs kf kg).mono hs (D2 := fun P => ∀ W : K → Column F, (∀ k ∈ Check.names (.bagEq f g), VOk s P N φ W k) → Check.Means N W (.bagEq f g)) fun P _ h W hW => ?_
    have vf := VOk.bag (b := f) (hW f.1 (by simp [Check.names])) (hW f.2 (by simp [Check.names])) hf.1
    have vg := VOk.bag (b := g) (hW g.1 (by simp [Check.names])) (hW g.2 (by simp [Check.names])) hf.2.1
    obtain ⟨h3, h4⟩ := h _ _ vf vg
    refine ⟨h3, fun b1 b2 => h4 b1 b2 (natsNonzero_mono hn (max_le ?_ ?_))⟩
    · rw [← vf.nv]; exact Nat.pow_le_pow_right (by norm_num) (hN f.1 (by simp [Check.names]))
    · rw [← vg.nv]; exact Nat.pow_le_pow_right (by norm_num) (hN g.1 (by simp [Check.names]))
  | bagSum f g h =>
    have kf : KnownBag s (bagCommOf (f.map φ φ)) := ⟨hk f.1 (by simp [Check.names]), hk f.2 (by simp [Check.names])⟩
    have kg : KnownBag s (bagCommOf (g.map φ φ)) := ⟨hk g.1 (by simp [Check.names]), hk g.2 (by simp [Check.names])⟩
    have kh : KnownBag s (bagCommOf (h.map φ φ)) := ⟨hk h.1 (by simp [Check.names]), hk h.2 (by simp [Check.names])⟩
    refine (bagSum_tabs (E := E) (N := N) h2 hs kf kg kh).mono hs (D2 := fun P => ∀ W : K → Column F, (∀ k ∈ Check.names (.bagSum f g h), VOk s P N φ W k) → Check.Means N W (.bagSum f g h)) fun P _ hh W hW => ?_
    have vf := VOk.bag (b := f) (hW f.1 (by simp [Check.names])) (hW f.2 (by simp [Check.names])) hf.1
    have vg := VOk.bag (b := g) (hW g.1 (by simp [Check.names])) (hW g.2 (by simp [Check.names])) hf.2.1
    have vh := VOk.bag (b := h) (hW h.1 (by simp [Check.names])) (hW h.2 (by simp [Check.names])) hf.2.2
    exact hh _ _ _ vf vg vh
  | inclusion f g =>
    have kf : KnownBag s (bagCommOf (f.map φ φ)) := ⟨hk f.1 (by simp [Check.names]), hk f.2 (by simp [Check.names])⟩
    have kg : KnownBag s (bagCommOf (g.map φ φ)) := ⟨hk g.1 (by simp [Check.names]), hk g.2 (by simp [Check.names])⟩
    refine (inclusion_tabs (E := E) (N := N) h2 hs kf kg).mono hs (D2 := fun P => ∀ W : K → Column F, (∀ k ∈ Check.names (.inclusion f g), VOk s P N φ W k) → Check.Means N W (.inclusion f g)) fun P _ h W hW => ?_
    have vf := VOk.bag (b := f) (hW f.1 (by simp [Check.names])) (hW f.2 (by simp [Check.names])) hf.1
    have vg := VOk.bag (b := g) (hW g.1 (by simp [Check.names])) (hW g.2 (by simp [Check.names])) hf.2
    have h3 := h _ _ vf vg
    exact ⟨h3, fun bf z hz => h3 z ((active_iff_weight bf (by rw [← vf.nv]; exact nn _ (hN f.1 (by simp [Check.names]))) z).1 hz)⟩
  | inclusionAdvice f g m =>
    have kf : KnownBag s (bagCommOf (f.map φ φ)) := ⟨hk f.1 (by simp [Check.names]), hk f.2 (by simp [Check.names])⟩
    have kg : KnownBag s (bagCommOf (g.map φ φ)) := ⟨hk g.1 (by simp [Check.names]), hk g.2 (by simp [Check.names])⟩
    have km : Known s (φ m).id := hk m (by simp [Check.names])
    refine (inclusionAdvice_snd (E := E) (N := N) h2 hs kf kg km).mono hs (D2 := fun P => ∀ W : K → Column F, (∀ k ∈ Check.names (.inclusionAdvice f g m), VOk s P N φ W k) → Check.Means N W (.inclusionAdvice f g m)) fun P _ h W hW => ?_
    have vf := VOk.bag (b := f) (hW f.1 (by simp [Check.names])) (hW f.2 (by simp [Check.names])) hf.1
    have vg := VOk.bag (b := g) (hW g.1 (by simp [Check.names])) (hW g.2 (by simp [Check.names])) hf.2.1
    refine h _ _ _ vf vg ?_
    rw [← vg.nv]; exact (hW m (by simp [Check.names])).resize hf.2.2
  | noZeros f =>
    have kf : KnownBag s (bagCommOf (f.map φ φ)) := ⟨hk f.1 (by simp [Check.names]), hk f.2 (by simp [Check.names])⟩
    refine (noZeros_sound (E := E) (N := N) hs kf).mono hs (D2 := fun P => ∀ W : K → Column F, (∀ k ∈ Check.names (.noZeros f), VOk s P N φ W k) → Check.Means N W (.noZeros f)) fun P _ h W hW => ?_
    have vf := VOk.bag (b := f) (hW f.1 (by simp [Check.names])) (hW f.2 (by simp [Check.names])) hf
    intro i hi h0
    have hle : 2 ^ (W f.1).nv ≤ 2 ^ N := Nat.pow_le_pow_right (by norm_num) vf.le
    have := h _ _ vf.val.2 vf.sel.2 i (lt_of_lt_of_le hi hle)
    simp only [bagTab, Nat.mod_eq_of_lt hi] at this
    exact this h0
  | selector m =>
    have km : Known s (φ m).id := hk m (by simp [Check.names])
    refine (selectorValid_sound (N := N) hs km).mono hs (D2 := fun P => ∀ W : K → Column F, (∀ k ∈ Check.names (.selector m), VOk s P N φ W k) → Check.Means N W (.selector m)) fun P _ h W hW => ?_
    intro i hi
    have v := hW m (by simp [Check.names])
    have hle : 2 ^ (W m).nv ≤ 2 ^ N := Nat.pow_le_pow_right (by norm_num) v.2.1
    have := h _ v.2.2 i (lt_of_lt_of_le hi hle)
    simpa only [Nat.mod_eq_of_lt hi] using this
  | permutation f g p =>
    have kf : Known s (bagCommOf (f.map φ φ)).poly := hk f.1 (by simp [Check.names])
    have kg : Known s (bagCommOf (g.map φ φ)).poly := hk g.1 (by simp [Check.names])
    have kp : Known s (φ p).id := hk p (by simp [Check.names])
    refine (permutation_snd (E := E) (N := N) h2 hs kf kg kp hf.2.2.1.symm hn).mono hs
      (D2 := fun P => ∀ W : K → Column F, (∀ k ∈ Check.names (.permutation f g p), VOk s P N φ W k) → Check.Means N W (.permutation f g p)) fun P _ h W hW => ?_
    exact h _ _ _ (hW f.1 (by simp [Check.names])).2.2 (hW g.1 (by simp [Check.names])).2.2 (hW p (by simp [Check.names])).2.2
  | sort f range =>
    have kf : KnownBag s (bagCommOf (f.map φ φ)) := ⟨hk f.1 (by simp [Check.names]), hk f.2 (by simp [Check.names])⟩
    have kr : Known s (bagCommOf (range.map φ φ)).poly := hk range.1 (by simp [Check.names])
    refine (sort_tabs (E := E) (N := N) h2 (nn _ (hN f.1 (by simp [Check.names]))) hs kf kr).mono hs (D2 := fun P => ∀ W : K → Column F, (∀ k ∈ Check.names (.sort f range), VOk s P N φ W k) → Check.Means N W (.sort f range)) fun P _ h W hW => ?_
    have vf := VOk.bag (b := f) (hW f.1 (by simp [Check.names])) (hW f.2 (by simp [Check.names])) hf
    have vr := hW range.1 (by simp [Check.names])
    obtain ⟨h3, h4⟩ := h
    obtain ⟨h5, h6⟩ := h4 _ _ vf (vr.resize rfl)
    have e : (φ range.1).numVars = (W range.1).nv := vr.1
    refine ⟨h3.trans vf.nv, ?_, fun M hM => ?_⟩
    · rw [← e]; exact h5
    · obtain ⟨h7, h8⟩ := h6 M (by
        intro j hj
        exact hM.2 j (by rw [← e]; exact hj))
      exact ⟨h7, h8 hM.1⟩
  | support f g range =>
    have kf : KnownBag s (bagCommOf (f.map φ φ)) := ⟨hk f.1 (by simp [Check.names]), hk f.2 (by simp [Check.names])⟩
    have kg : KnownBag s (bagCommOf (g.map φ φ)) := ⟨hk g.1 (by simp [Check.names]), hk g.2 (by simp [Check.names])⟩
    have kr : Known s (bagCommOf (range.map φ φ)).poly := hk range.1 (by simp [Check.names])
    refine (support_snd (E := E) (N := N) h2 (nn _ (hN g.1 (by simp [Check.names]))) (nn _ (hN f.1 (by simp [Check.names]))) hs kf kg kr).mono hs (D2 := fun P => ∀ W : K → Column F, (∀ k ∈ Check.names (.support f g range), VOk s P N φ W k) → Check.Means N W (.support f g range)) fun P _ h W hW => ?_
    have vf := VOk.bag (b := f) (hW f.1 (by simp [Check.names])) (hW f.2 (by simp [Check.names])) hf.1
    have vg := VOk.bag (b := g) (hW g.1 (by simp [Check.names])) (hW g.2 (by simp [Check.names])) hf.2
    have vr := hW range.1 (by simp [Check.names])
    intro M hM bf
    exact h M (by rw [vg.nv]; exact hM.1) (vr.range hM) _ _ vf vg bf
  | supportAdvice f g m range =>
    have kf : KnownBag s (bagCommOf (f.map φ φ)) := ⟨hk f.1 (by simp [Check.names]), hk f.2 (by simp [Check.names])⟩
    have kg : KnownBag s (bagCommOf (g.map φ φ)) := ⟨hk g.1 (by simp [Check.names]), hk g.2 (by simp [Check.names])⟩
    have km : Known s (φ m).id := hk m (by simp [Check.names])
    have kr : Known s (bagCommOf (range.map φ φ)).poly := hk range.1 (by simp [Check.names])
    refine (supportAdvice_snd (E := E) (N := N) h2 (nn _ (hN g.1 (by simp [Check.names]))) (nn _ (hN f.1 (by simp [Check.names]))) hs kf kg km kr).mono hs (D2 := fun P => ∀ W : K → Column F, (∀ k ∈ Check.names (.supportAdvice f g m range), VOk s P N φ W k) → Check.Means N W (.supportAdvice f g m range)) fun P _ h W hW => ?_
    have vf := VOk.bag (b := f) (hW f.1 (by simp [Check.names])) (hW f.2 (by simp [Check.names])) hf.1
    have vg := VOk.bag (b := g) (hW g.1 (by simp [Check.names])) (hW g.2 (by simp [Check.names])) hf.2.1
    have vr := hW range.1 (by simp [Check.names])
    intro M hM bf
    exact h M (by rw [vg.nv]; exact hM.1) (vr.range hM) _ _ _ vf vg (hW m (by simp [Check.names])).2.2 bf
  | disjoint f g range =>
    have kf : KnownBag s (bagCommOf (f.map φ φ)) := ⟨hk f.1 (by simp [Check.names]), hk f.2 (by simp [Check.names])⟩
    have kg : KnownBag s (bagCommOf (g.map φ φ)) := ⟨hk g.1 (by simp [Check.names]), hk g.2 (by simp [Check.names])⟩
    have kr : Known s (bagCommOf (range.map φ φ)).poly := hk range.1 (by simp [Check.names])
    refine (disjoint_snd (E := E) (N := N) h2 (nn _ hf.2.2) hs kf kg kr).mono hs (D2 := fun P => ∀ W : K → Column F, (∀ k ∈ Check.names (.disjoint f g range), VOk s P N φ W k) → Check.Means N W (.disjoint f g range)) fun P _ h W hW => ?_
    have vf := VOk.bag (b := f) (hW f.1 (by simp [Check.names])) (hW f.2 (by simp [Check.names])) hf.1
    have vg := VOk.bag (b := g) (hW g.1 (by simp [Check.names])) (hW g.2 (by simp [Check.names])) hf.2.1
    have vr := hW range.1 (by simp [Check.names])
    intro M hM bf bg
    exact h M (by rw [vf.nv, vg.nv]; exact hM.1) (vr.range hM) _ _ vf vg bf bg
  | setDisjoint f g range =>
    have kf : KnownBag s (bagCommOf (f.map φ φ)) := ⟨hk f.1 (by simp [Check.names]), hk f.2 (by simp [Check.names])⟩
    have kg : KnownBag s (bagCommOf (g.map φ φ)) := ⟨hk g.1 (by simp [Check.names]), hk g.2 (by simp [Check.names])⟩
    have kr : Known s (bagCommOf (range.map φ φ)).poly := hk range.1 (by simp [Check.names])
    exact (setDisjoint_tabs (E := E) (N := N) h2 (nn _ hf.2.2) hs kf kg kr).mono hs
      (C2 := fun _ P => ∀ W : K → Column F, (∀ k ∈ Check.names (.setDisjoint f g range), VOk s P N φ W k) → Check.Means N W (.setDisjoint f g range)) fun P _ h W hW => trivial
  | union f g u range =>
    have kf : KnownBag s (bagCommOf (f.map φ φ)) := ⟨hk f.1 (by simp [Check.names]), hk f.2 (by simp [Check.names])⟩
    have kg : KnownBag s (bagCommOf (g.map φ φ)) := ⟨hk g.1 (by simp [Check.names]), hk g.2 (by simp [Check.names])⟩
    have ku : KnownBag s (bagCommOf (u.map φ φ)) := ⟨hk u.1 (by simp [Check.names]), hk u.2 (by simp [Check.names])⟩
    have kr : Known s (bagCommOf (range.map φ φ)).poly := hk range.1 (by simp [Check.names])
    have hab : 2 ^ (bagCommOf (f.map φ φ)).numVars + 2 ^ (bagCommOf (g.map φ φ)).numVars ≤ 2 ^ N := by
      have h1 : 2 ^ (φ f.1).numVars ≤ 2 ^ max (φ f.1).numVars (φ g.1).numVars := Nat.pow_le_pow_right (by norm_num) (le_max_left _ _)
      have h3 : 2 ^ (φ g.1).numVars ≤ 2 ^ max (φ f.1).numVars (φ g.1).numVars := Nat.pow_le_pow_right (by norm_num) (le_max_right _ _)
      have h4 : 2 ^ (max (φ f.1).numVars (φ g.1).numVars + 1) ≤ 2 ^ N := Nat.pow_le_pow_right (by norm_num) hf.2.2.2
      rw [pow_succ] at h4
      exact (Nat.add_le_add h1 h3).trans (by omega)
    refine (union_snd (E := E) (N := N) h2 (nn _ (hN u.1 (by simp [Check.names]))) (natsNonzero_mono hn hab) hs kf kg ku kr).mono hs (D2 := fun P => ∀ W : K → Column F, (∀ k ∈ Check.names (.union f g u range), VOk s P N φ W k) → Check.Means N W (.union f g u range)) fun P _ h W hW => ?_
    have vf := VOk.bag (b := f) (hW f.1 (by simp [Check.names])) (hW f.2 (by simp [Check.names])) hf.1
    have vg := VOk.bag (b := g) (hW g.1 (by simp [Check.names])) (hW g.2 (by simp [Check.names])) hf.2.1
    have vu := VOk.bag (b := u) (hW u.1 (by simp [Check.names])) (hW u.2 (by simp [Check.names])) hf.2.2.1
    have vr := hW range.1 (by simp [Check.names])
    intro M hM bf bg
    exact h M (by rw [vu.nv]; exact hM.1) (vr.range hM) _ _ _ vf vg vu bf bg
  | diff f g l m mult range =>
    have kf : KnownBag s (bagCommOf (f.map φ φ)) := ⟨hk f.1 (by simp [Check.names]), hk f.2 (by simp [Check.names])⟩
    have kg : KnownBag s (bagCommOf (g.map φ φ)) := ⟨hk g.1 (by simp [Check.names]), hk g.2 (by simp [Check.names])⟩
    have kl : KnownBag s (bagCommOf (l.map φ φ)) := ⟨hk l.1 (by simp [Check.names]), hk l.2 (by simp [Check.names])⟩
    have km : KnownBag s (bagCommOf (m.map φ φ)) := ⟨hk m.1 (by simp [Check.names]), hk m.2 (by simp [Check.names])⟩
    have kmult : Known s (φ mult).id := hk mult (by simp [Check.names])
    have kr : Known s (bagCommOf (range.map φ φ)).poly := hk range.1 (by simp [Check.names])
    refine (setDiff_weights (E := E) (N := N) h2 (nn _ hf.2.2.2.2.2) hs kf kg kl km kmult kr).mono hs (D2 := fun P => ∀ W : K → Column F, (∀ k ∈ Check.names (.diff f g l m mult range), VOk s P N φ W k) → Check.Means N W (.diff f g l m mult range)) fun P _ h W hW => ?_
    have vf := VOk.bag (b := f) (hW f.1 (by simp [Check.names])) (hW f.2 (by simp [Check.names])) hf.1
    have vg := VOk.bag (b := g) (hW g.1 (by simp [Check.names])) (hW g.2 (by simp [Check.names])) hf.2.1
    have vl := VOk.bag (b := l) (hW l.1 (by simp [Check.names])) (hW l.2 (by simp [Check.names])) hf.2.2.1
    have vm := VOk.bag (b := m) (hW m.1 (by simp [Check.names])) (hW m.2 (by simp [Check.names])) hf.2.2.2.1
    have vr := hW range.1 (by simp [Check.names])
    exact h _ _ _ _ _ vf vg vl vm (hW mult (by simp [Check.names])).2.2
  | intersect f g l m r range =>
    have kf : KnownBag s (bagCommOf (f.map φ φ)) := ⟨hk f.1 (by simp [Check.names]), hk f.2 (by simp [Check.names])⟩
    have kg : KnownBag s (bagCommOf (g.map φ φ)) := ⟨hk g.1 (by simp [Check.names]), hk g.2 (by simp [Check.names])⟩
    have kl : KnownBag s (bagCommOf (l.map φ φ)) := ⟨hk l.1 (by simp [Check.names]), hk l.2 (by simp [Check.names])⟩
    have km : KnownBag s (bagCommOf (m.map φ φ)) := ⟨hk m.1 (by simp [Check.names]), hk m.2 (by simp [Check.names])⟩
    have kr : KnownBag s (bagCommOf (r.map φ φ)) := ⟨hk r.1 (by simp [Check.names]), hk r.2 (by simp [Check.names])⟩
    have krg : Known s (bagCommOf (range.map φ φ)).poly := hk range.1 (by simp [Check.names])
    refine (setIntersect_weights (E := E) (N := N) h2 (nn _ hf.2.2.2.2.2) hs kf kg kl km kr krg).mono hs (D2 := fun P => ∀ W : K → Column F, (∀ k ∈ Check.names (.intersect f g l m r range), VOk s P N φ W k) → Check.Means N W (.intersect f g l m r range)) fun P _ h W hW => ?_
    have vf := VOk.bag (b := f) (hW f.1 (by simp [Check.names])) (hW f.2 (by simp [Check.names])) hf.1
    have vg := VOk.bag (b := g) (hW g.1 (by simp [Check.names])) (hW g.2 (by simp [Check.names])) hf.2.1
    have vl := VOk.bag (b := l) (hW l.1 (by simp [Check.names])) (hW l.2 (by simp [Check.names])) hf.2.2.1
    have vm := VOk.bag (b := m) (hW m.1 (by simp [Check.names])) (hW m.2 (by simp [Check.names])) hf.2.2.2.1
    have vr := VOk.bag (b := r) (hW r.1 (by simp [Check.names])) (hW r.2 (by simp [Check.names])) hf.2.2.2.2.1
    have _ := hW range.1 (by simp [Check.names])
    exact h _ _ _ _ _ vf vg vl vm vr
  | joinReduction f g lSel rSel range =>
    have kf : KnownBag s (bagCommOf (f.map φ φ)) := ⟨hk f.1 (by simp [Check.names]), hk f.2 (by simp [Check.names])⟩
    have kg : KnownBag s (bagCommOf (g.map φ φ)) := ⟨hk g.1 (by simp [Check.names]), hk g.2 (by simp [Check.names])⟩
    have klSel : Known s (φ lSel).id := hk lSel (by simp [Check.names])
    have krSel : Known s (φ rSel).id := hk rSel (by simp [Check.names])
    have kr : Known s (bagCommOf (range.map φ φ)).poly := hk range.1 (by simp [Check.names])
    refine (joinReduction_sound (E := E) (N := N) h2 (nn _ hf.2.2.2.2) hs kf kg klSel krSel kr).mono hs (D2 := fun P => ∀ W : K → Column F, (∀ k ∈ Check.names (.joinReduction f g lSel rSel range), VOk s P N φ W k) → Check.Means N W (.joinReduction f g lSel rSel range)) fun P _ h W hW => ?_
    have vf := VOk.bag (b := f) (hW f.1 (by simp [Check.names])) (hW f.2 (by simp [Check.names])) hf.1
    have vg := VOk.bag (b := g) (hW g.1 (by simp [Check.names])) (hW g.2 (by simp [Check.names])) hf.2.1
    have vr := hW range.1 (by simp [Check.names])
    intro M h0 hM bf bg
    refine h.2 M h0 (vr.range hM) (by rw [vf.nv, vg.nv]; exact hM.1) _ _ _ _ vf vg ?_ ?_ bf bg
    · rw [← vf.nv]; exact (hW lSel (by simp [Check.names])).resize hf.2.2.1
    · rw [← vg.nv]; exact (hW rSel (by simp [Check.names])).resize hf.2.2.2.1
  | indexTransform inp out =>
    have ki := knownTab_of (t := inp) (fun k h => hk k (by simp [Check.names, h])) (hk inp.2 (by simp [Check.names]))
    have ko := knownTab_of (t := out) (fun k h => hk k (by simp [Check.names, h])) (hk out.2 (by simp [Check.names]))
    refine (indexTransform_snd (E := E) (N := N) h2 (nn _ (hN out.2 (by simp [Check.names]))) hs ki ko).mono hs
      (D2 := fun P => ∀ W : K → Column F, (∀ k ∈ Check.names (.indexTransform inp out), VOk s P N φ W k) → Check.Means N W (.indexTransform inp out)) fun P _ h W hW => ?_
    exact h _ _ (holdsTab_of (fun k hk => hW k (by simp [Check.names, hk])) (hW inp.2 (by simp [Check.names])) hf.1)
      (holdsTab_of (fun k hk => hW k (by simp [Check.names, hk])) (hW out.2 (by simp [Check.names])) hf.2.1) (by simpa [tabData] using hf.2.2)
  | joinAdvice a b ai bi ta =>
    have ka := knownTab_of (t := a) (fun k h => hk k (by simp [Check.names, h])) (hk a.2 (by simp [Check.names]))
    have kb := knownTab_of (t := b) (fun k h => hk k (by simp [Check.names, h])) (hk b.2 (by simp [Check.names]))
    have kt : ∀ c ∈ (ta.map φ).map (·.id), Known s c := by
      intro c hc
      simp only [List.map_map, List.mem_map, Function.comp] at hc
      obtain ⟨k, h1, rfl⟩ := hc
      exact hk k (by simp [Check.names, h1])
    intro β K' b2 Concl hK
    simp only [Check.map, Check.verify, Act.bind_assoc]
    refine (finalJoin_snd (E := E) (N := N) (ai := ai) (bi := bi) h2 hn hs ka kb kt (by simpa [tableCommOf, sameTab, tableOf] using hf.2.2.2.1)
      (by simpa [tableCommOf, sameTab, tableOf] using hf.2.2.2.2.1)).bind fun _ s1 L => (hK () s1 L).mono L.sane fun P _ h hj => h fun W hW => ?_
    have vb := hW b.2 (by simp [Check.names])
    refine hj _ _ _ (holdsTab_of (fun k hk => hW k (by simp [Check.names, hk])) (hW a.2 (by simp [Check.names])) hf.1)
      (holdsTab_of (fun k hk => hW k (by simp [Check.names, hk])) vb hf.2.1) ?_
    have := holdsCols_of (φ := φ) (W := W) (n := (φ b.2).numVars) (l := ta) (fun k hk => hW k (by simp [Check.names, hk])) hf.2.2.1
    rw [vb.1] at this
    exact this
  | groupBy inp key grp mult aggs range =>
    have ki := knownTab_of (t := inp) (fun k h => hk k (by simp [Check.names, h])) (hk inp.2 (by simp [Check.names]))
    have mag : ∀ e ∈ aggs, e.2.2 ∈ Check.names (.groupBy inp key grp mult aggs range) := fun e he => by
      simp only [Check.names, List.mem_append, List.mem_cons, List.mem_map]
      exact .inr (.inr (.inr (.inr (.inr (.inr (.inr ⟨e, he, rfl⟩))))))
    have kr : KnownRequest s (sameInstr (requestOf key (grp.map φ φ) (φ mult) (aggs.map fun e => (e.1, e.2.1, φ e.2.2)))) := by
      refine ⟨fun c hc => ?_, hk grp.2 (by simp [Check.names]), hk mult (by simp [Check.names]), fun e he => ?_⟩
      · obtain rfl : c = (φ grp.1).id := by simpa [sameInstr, requestOf] using hc
        exact hk grp.1 (by simp [Check.names])
      · simp only [sameInstr, requestOf, List.map_map, List.mem_map, Function.comp] at he
        obtain ⟨d, h1, rfl⟩ := he
        exact hk _ (mag d h1)
    have kR : Known s (bagCommOf (range.map φ φ)).poly := hk range.1 (by simp [Check.names])
    intro β K' b2 Concl hK
    have eb : Check.soundBounds N (sizes F φ) (.groupBy inp key grp mult aggs range) = groupBounds (tableCommOf (inp.1.map φ, φ inp.2)).numVars (bagCommOf (range.map φ φ)).numVars
        (sameInstr (requestOf key (grp.map φ φ) (φ mult) (aggs.map fun e => (e.1, e.2.1, φ e.2.2)))).aggs := by
      unfold groupBounds
      simp only [sameInstr, requestOf, List.filter_map, List.map_map]
      rfl
    rw [eb]
    simp only [Check.map, Check.verify, Act.bind_assoc]
    refine (groupBy_snd (E := E) (N := N) h2 (nn _ (hN inp.2 (by simp [Check.names]))) hs ki kr kR).bind fun _ s1 L => (hK () s1 L).mono L.sane fun P _ h hg => h fun W hW => ?_
    have vi := hW inp.2 (by simp [Check.names])
    have vr := hW range.1 (by simp [Check.names])
    have vg := VOk.bag (b := grp) (hW grp.1 (by simp [Check.names])) (hW grp.2 (by simp [Check.names])) hf.2.1
    have vm : Holds s P N (φ mult).id (φ grp.1).numVars (W mult).val := (hW mult (by simp [Check.names])).resize hf.2.2.1
    have e1 : (φ grp.1).numVars = (W grp.1).nv := vg.nv
    have e2 : (φ inp.2).numVars = (φ grp.1).numVars := hf.2.2.2.1
    have va := holdsAggs_of (φ := φ) (W := W) (n := (φ grp.1).numVars) (l := aggs) (fun e he => hW _ (mag e he)) fun e he => (hf.2.2.2.2.2 e he).1
    intro M hM bT
    have := hg M (by show NatsNonzero F (2 ^ (φ inp.2).numVars * M); rw [e2, e1]; exact hM.1) (vr.range hM) (tabData W inp) (groupData W key grp mult aggs)
      (holdsTab_of (fun k hk => hW k (by simp [Check.names, hk])) vi hf.1)
      ⟨rfl, ⟨_, rfl, vg.val⟩, vg.sel, by rw [e1] at vm; exact vm, by rw [e1] at va; exact va⟩ bT (by
        show (W inp.2).nv = (W grp.1).nv
        rw [← vi.1, e2, e1])
    obtain ⟨h1, h3, h4, h5, h6⟩ := this
    refine ⟨h1, h3, h4, fun e he hsum i hi h0 => h5 (e.1, e.2.1, (W e.2.2).val) (List.mem_map.2 ⟨e, he, rfl⟩) hsum i hi h0, h6⟩

/-! ### Programs -/

/-- All of the verifier's columns have these sizes and contents. -/
def AllV (s : VSt F C B) (P : C → List F → F) (N : Nat) (hs : List TPoly) (W : List (Column F)) : Prop :=
  hs.length = W.length ∧ ∀ i < W.length, VOk s P N (at' hs) (colAt W) i

/-- The columns have the sizes of the handles. -/
def Sized (hs : List TPoly) (W : List (Column F)) : Prop := hs.length = W.length ∧ ∀ i, (at' hs i).numVars = (colAt W i).nv

theorem at'_push {hs : List TPoly} {x : TPoly} {i : Nat} : at' (hs ++ [x]) i = if i < hs.length then at' hs i else if i = hs.length then x else ⟨0, 0⟩ := by
  unfold at'
  split
  · next h => exact List.getD_append _ _ _ _ h
  · next h =>
    rw [List.getD_append_right _ _ _ _ (by omega)]
    split
    · next h' => rw [h', Nat.sub_self]; rfl
    · next h' =>
      rw [List.getD_eq_default]
      simp; omega

theorem colAt_push {hs : List (Column F)} {x : Column F} {i : Nat} :
    colAt (hs ++ [x]) i = if i < hs.length then colAt hs i else if i = hs.length then x else ⟨0, fun _ => 0⟩ := by
  unfold colAt
  split
  · next h => exact List.getD_append _ _ _ _ h
  · next h =>
    rw [List.getD_append_right _ _ _ _ (by omega)]
    split
    · next h' => rw [h', Nat.sub_self]; rfl
    · next h' =>
      rw [List.getD_eq_default]
      simp; omega

theorem Sized.push {hs : List TPoly} {W : List (Column F)} (h : Sized hs W) {x : TPoly} {w : Column F} (hx : x.numVars = w.nv) : Sized (hs ++ [x]) (W ++ [w]) := by
  refine ⟨by simp [h.1], fun i => ?_⟩
  rw [at'_push, colAt_push, h.1]
  split
  · exact h.2 i
  · split
    · exact hx
    · rfl

theorem Spec.KnownAll.at' {hs : List TPoly} (h : KnownAll s hs) {i : Nat} (hi : i < hs.length) : Known s (at' hs i).id := by
  unfold Spec.at'
  rw [List.getD_eq_getElem _ _ hi]
  exact h _ (List.getElem_mem hi)

theorem Spec.KnownAll.push {hs : List TPoly} (h : KnownAll s hs) (L : Later s s1) {x : TPoly} (hx : Known s1 x.id) : KnownAll s1 (hs ++ [x]) := by
  intro a ha
  rcases List.mem_append.1 ha with ha | ha
  · exact L.known (h a ha)
  · rw [List.mem_singleton.1 ha]; exact hx

theorem AllV.later {hs : List TPoly} {W : List (Column F)} (h : AllV s P N hs W) (hs' : Sane s) (L : Later s s1) (k : KnownAll s hs) : AllV s1 P N hs W :=
  ⟨h.1, fun i hi => ⟨(h.2 i hi).1, (L.holds hs' (k.at' (h.1 ▸ hi))).2 (h.2 i hi).2⟩⟩

theorem AllV.push {hs : List TPoly} {W : List (Column F)} (h : AllV s P N hs W) {x : TPoly} {w : Column F} (hx : x.numVars = w.nv) (hw : Holds s P N x.id w.nv w.val) :
    AllV s P N (hs ++ [x]) (W ++ [w]) := by
  refine ⟨by simp [h.1], fun i hi => ?_⟩
  unfold VOk
  rw [at'_push, colAt_push, h.1]
  split
  · next h' => exact h.2 i h'
  · next h' =>
    rw [List.length_append, List.length_singleton] at hi
    rw [if_pos (by omega), if_pos (by omega)]
    exact ⟨hx, hw⟩

theorem Sized.append {nv : Nat} : ∀ {xs : List TPoly} {Ts : List (Nat → F)} {hs : List TPoly} {W : List (Column F)}, Sized hs W → xs.length = Ts.length → (∀ x ∈ xs, x.numVars = nv) →
    Sized (hs ++ xs) (W ++ Ts.map fun T => ⟨nv, T⟩)
  | [], [], _, _, h, _, _ => by simpa using h
  | x :: xs, T :: Ts, hs, W, h, hl, hx => by
    have := Sized.append (hs := hs ++ [x]) (W := W ++ [⟨nv, T⟩]) (Ts := Ts) (h.push (hx x (by simp))) (by simpa using hl) fun y hy => hx y (by simp [hy])
    simpa using this
  | [], _ :: _, _, _, _, hl, _ => by simp at hl
  | _ :: _, [], _, _, _, hl, _ => by simp at hl

theorem AllV.append {nv : Nat} : ∀ {ids : List Nat} {Ts : List (Nat → F)} {hs : List TPoly} {W : List (Column F)}, AllV s P N hs W → HoldsCols s P N nv ids Ts →
    AllV s P N (hs ++ ids.map fun i => ⟨i, nv⟩) (W ++ Ts.map fun T => ⟨nv, T⟩)
  | [], [], _, _, h, _ => by simpa using h
  | x :: xs, T :: Ts, hs, W, h, hc => by
    have := AllV.append (hs := hs ++ [⟨x, nv⟩]) (W := W ++ [⟨nv, T⟩]) (h.push rfl hc.1) hc.2
    simpa using this
  | [], _ :: _, _, _, _, hc => hc.elim
  | _ :: _, [], _, _, _, hc => hc.elim

theorem Spec.KnownAll.append {hs : List TPoly} (h : KnownAll s hs) (L : Later s s1) {xs : List TPoly} (hx : ∀ x ∈ xs, Known s1 x.id) : KnownAll s1 (hs ++ xs) := by
  intro a ha
  rcases List.mem_append.1 ha with ha | ha
  · exact L.known (h a ha)
  · exact hx a ha

/-- Columns behind commitments, with given contents. -/
theorem holdsCols_received {nv : Nat} (hN : nv ≤ N) : ∀ {ids : List Nat} {cs : List C} {Ts : List (Nat → F)}, ValsL s P N ids (cs.map fun c b => P c (boolPt N b)) →
    List.Forall₂ (fun c T => ∀ x < 2 ^ N, P c (boolPt N x) = T (x % 2 ^ nv)) cs Ts → HoldsCols s P N nv ids Ts
  | [], [], _, _, .nil => trivial
  | i :: ids, c :: cs, _, .cons h1 h2, .cons h3 h4 => ⟨⟨hN, h1.congr h3⟩, holdsCols_received hN h2 h4⟩

/-- The verifier's side of a join returns the received columns and those of the second table. -/
theorem finalJoin_returns {V : Env F C} {a b : TableComm} {ai bi : Nat} {ta : List Nat} {γ : Type} (K : TableComm → Act (VSt F C B) γ) :
    (FinalJoin.verifyWithAdvice V a b ai bi ta >>= K) = FinalJoin.verifyWithAdvice V a b ai bi ta >>= fun _ => K ⟨ta ++ b.colVals, b.selector, b.numVars⟩ := by
  unfold FinalJoin.verifyWithAdvice
  simp only [Act.bind_assoc]
  rfl

/-- The contents of two columns of the same size. -/
theorem AllV.two {hs : List TPoly} {W W0 : List (Column F)} (h : AllV s P N hs W) (hz : Sized hs W0) {i j : Nat} (hi : i < W0.length) (hj : j < W0.length)
    (he : (colAt W0 j).nv = (colAt W0 i).nv) :
    Holds s P N (at' hs i).id (colAt W i).nv (colAt W i).val ∧ Holds s P N (at' hs j).id (colAt W i).nv (colAt W j).val ∧ (at' hs i).numVars = (colAt W i).nv := by
  have l : W0.length = W.length := hz.1.symm.trans h.1
  have a := h.2 i (l ▸ hi)
  have b := h.2 j (l ▸ hj)
  refine ⟨a.2, ?_, a.1⟩
  have := b.resize ((hz.2 j).trans (he.trans (hz.2 i).symm))
  rw [a.1] at this
  exact this

theorem program_soundF (h2 : (2 : F) ≠ 0) (hn : NatsNonzero F (2 ^ N)) : ∀ {prog : List (Step F)} {hs : List TPoly} {W0 : List (Column F)} {s : VSt F C B},
    Sane s → KnownAll s hs → Sized hs W0 → Step.FitsAll N W0 prog →
    SoundF (fun H => Step.verifyAll (E.withH H) prog hs) s N (Step.soundBoundsAll N W0 prog) fun pf P => ∀ W, AllV s P N hs W → Step.MeansAll pf P N W prog
  | [], hs, W0, s, hS, k, hz, hf => SoundF.pure hS fun P _ W _ => trivial
  | .commit p :: r, hs, W0, s, hS, k, hz, hf => by
    simp only [Step.verifyAll]
    refine step_transferP hS fun x c s1 q l m hx _ => ?_
    have ih := program_soundF h2 hn (prog := r) q.sane (k.push q.toLater (x := ⟨x, p.numVars⟩) (known_look l)) (hz.push (w := ⟨p.numVars, p.tbl⟩) rfl) hf.2
    refine ih.mono q.sane fun P _ h hc W hW => ⟨_, c, hc, fun T hT => h _ ((hW.later hS q.toLater k).push rfl ⟨hf.1.2, ?_⟩)⟩
    exact (vals_query q.sane l m).congr hT
  | .add i j :: r, hs, W0, s, hS, k, hz, hf => by
    simp only [Step.verifyAll]
    refine step_add hS (k.at' (hz.1 ▸ hf.1.1)) (k.at' (hz.1 ▸ hf.1.2.1)) fun x s1 q l => ?_
    have ih := program_soundF h2 hn (prog := r) q.sane (k.push q.toLater (x := ⟨x, (at' hs i).numVars⟩) (known_look l))
      (hz.push (w := ⟨(colAt W0 i).nv, fun b => (colAt W0 i).val b + (colAt W0 j).val b⟩) (hz.2 i)) hf.2
    refine ih.mono q.sane fun P _ h W hW => ?_
    have hW1 := hW.later hS q.toLater k
    obtain ⟨a, b, e⟩ := hW1.two hz hf.1.1 hf.1.2.1 hf.1.2.2
    exact h _ (hW1.push (w := ⟨(colAt W i).nv, fun b => (colAt W i).val b + (colAt W j).val b⟩) e ⟨a.1, vals_add q.sane l a.2 b.2⟩)
  | .sub i j :: r, hs, W0, s, hS, k, hz, hf => by
    simp only [Step.verifyAll]
    refine step_sub hS (k.at' (hz.1 ▸ hf.1.1)) (k.at' (hz.1 ▸ hf.1.2.1)) fun x s1 q l => ?_
    have ih := program_soundF h2 hn (prog := r) q.sane (k.push q.toLater (x := ⟨x, (at' hs i).numVars⟩) (known_look l))
      (hz.push (w := ⟨(colAt W0 i).nv, fun b => (colAt W0 i).val b - (colAt W0 j).val b⟩) (hz.2 i)) hf.2
    refine ih.mono q.sane fun P _ h W hW => ?_
    have hW1 := hW.later hS q.toLater k
    obtain ⟨a, b, e⟩ := hW1.two hz hf.1.1 hf.1.2.1 hf.1.2.2
    exact h _ (hW1.push (w := ⟨(colAt W i).nv, fun b => (colAt W i).val b - (colAt W j).val b⟩) e ⟨a.1, vals_sub q.sane l a.2 b.2⟩)
  | .mul i j :: r, hs, W0, s, hS, k, hz, hf => by
    simp only [Step.verifyAll]
    refine step_mul hS (k.at' (hz.1 ▸ hf.1.1)) (k.at' (hz.1 ▸ hf.1.2.1)) fun x s1 q l => ?_
    have ih := program_soundF h2 hn (prog := r) q.sane (k.push q.toLater (x := ⟨x, (at' hs i).numVars⟩) (known_look l))
      (hz.push (w := ⟨(colAt W0 i).nv, fun b => (colAt W0 i).val b * (colAt W0 j).val b⟩) (hz.2 i)) hf.2
    refine ih.mono q.sane fun P _ h W hW => ?_
    have hW1 := hW.later hS q.toLater k
    obtain ⟨a, b, e⟩ := hW1.two hz hf.1.1 hf.1.2.1 hf.1.2.2
    exact h _ (hW1.push (w := ⟨(colAt W i).nv, fun b => (colAt W i).val b * (colAt W j).val b⟩) e ⟨a.1, vals_mul q.sane l a.2 b.2⟩)
  | .addScalar i c :: r, hs, W0, s, hS, k, hz, hf => by
    simp only [Step.verifyAll]
    refine step_addScalar hS (k.at' (hz.1 ▸ hf.1)) fun x s1 q l => ?_
    have ih := program_soundF h2 hn (prog := r) q.sane (k.push q.toLater (x := ⟨x, (at' hs i).numVars⟩) (known_look l))
      (hz.push (w := ⟨(colAt W0 i).nv, fun b => (colAt W0 i).val b + c⟩) (hz.2 i)) hf.2
    refine ih.mono q.sane fun P _ h W hW => ?_
    have hW1 := hW.later hS q.toLater k
    obtain ⟨a, b, e⟩ := hW1.two hz hf.1 hf.1 rfl
    exact h _ (hW1.push (w := ⟨(colAt W i).nv, fun b => (colAt W i).val b + c⟩) e ⟨a.1, vals_addScalar q.sane l a.2⟩)
  | .mulScalar i c :: r, hs, W0, s, hS, k, hz, hf => by
    simp only [Step.verifyAll]
    refine step_mulScalar hS (k.at' (hz.1 ▸ hf.1)) fun x s1 q l => ?_
    have ih := program_soundF h2 hn (prog := r) q.sane (k.push q.toLater (x := ⟨x, (at' hs i).numVars⟩) (known_look l))
      (hz.push (w := ⟨(colAt W0 i).nv, fun b => c * (colAt W0 i).val b⟩) (hz.2 i)) hf.2
    refine ih.mono q.sane fun P _ h W hW => ?_
    have hW1 := hW.later hS q.toLater k
    obtain ⟨a, b, e⟩ := hW1.two hz hf.1 hf.1 rfl
    exact h _ (hW1.push (w := ⟨(colAt W i).nv, fun b => c * (colAt W i).val b⟩) e ⟨a.1, vals_mulScalar q.sane l a.2⟩)
  | .check c :: r, hs, W0, s, hS, k, hz, hf => by
    simp only [Step.verifyAll, Step.soundBoundsAll]
    rw [Check.soundBounds_congr (W' := sizes F (at' hs)) fun i => (hz.2 i).symm]
    refine (check_snd (E := E) (N := N) (φ := at' hs) (c := c) h2 hn hS (fun i hi => k.at' (hz.1 ▸ hf.1.1 i hi)) (Check.fits_congr (fun i => (hz.2 i).symm) hf.1.2)).bind fun _ s1 L => ?_
    have ih := program_soundF h2 hn (prog := r) (hs := hs) L.sane (fun a ha => L.known (k a ha)) hz hf.2
    refine ih.mono L.sane fun P _ h hc W hW => ⟨hc _ fun i hi => hW.2 i ?_, h _ (hW.later hS L k)⟩
    have := hf.1.1 i hi
    rwa [← hW.1, hz.1]
  | .join a b ai bi :: r, hs, W0, s, hS, k, hz, hf => by
    simp only [Step.verifyAll, Step.soundBoundsAll]
    obtain ⟨⟨hN, ea, eb, hai, hbi⟩, hf⟩ := hf
    have kat : ∀ i ∈ a.1 ++ a.2 :: (b.1 ++ [b.2]), Known s (at' hs i).id := fun i hi => k.at' (hz.1 ▸ (hN i hi).1)
    have ka := knownTab_of (φ := at' hs) (t := a) (fun i h => kat i (by simp [h])) (kat a.2 (by simp))
    have kb := knownTab_of (φ := at' hs) (t := b) (fun i h => kat i (by simp [h])) (kat b.2 (by simp))
    unfold FinalJoin.verify
    simp only [Act.bind_assoc]
    refine step_transferAll (E := E) (K := fun ids H => FinalJoin.verifyWithAdvice (E.withH H) (tableCommOf (a.1.map (at' hs), at' hs a.2)) (tableCommOf (b.1.map (at' hs), at' hs b.2)) ai bi ids >>=
      fun y => Step.verifyAll (E.withH H) r (hs ++ (y.colVals.take a.1.length).map fun i => ⟨i, (at' hs b.2).numVars⟩)) _ hS fun ids s1 cs L hids kids vids => ?_
    have hla : (tableCommOf (a.1.map (at' hs), at' hs a.2)).colVals.length = a.1.length := by simp [tableCommOf, sameTab, tableOf]
    have hlen : ids.length = a.1.length := by rw [hids, List.length_range', hla]
    have hcs : cs.length = a.1.length := by
      have := valsL_length (vids fun _ _ => 0)
      rw [List.length_map] at this
      rw [← this, hlen]
    have etake : ((ids ++ (tableCommOf (b.1.map (at' hs), at' hs b.2)).colVals).take a.1.length) = ids := by rw [← hlen, List.take_left']; rfl
    have ev : ∀ H, ((FinalJoin.verifyWithAdvice (E.withH H) (tableCommOf (a.1.map (at' hs), at' hs a.2)) (tableCommOf (b.1.map (at' hs), at' hs b.2)) ai bi ids : Act (VSt F C B) TableComm) >>=
        fun y => Step.verifyAll (E.withH H) r (hs ++ (y.colVals.take a.1.length).map fun i => ⟨i, (at' hs b.2).numVars⟩)) =
        FinalJoin.verifyWithAdvice (E.withH H) (tableCommOf (a.1.map (at' hs), at' hs a.2)) (tableCommOf (b.1.map (at' hs), at' hs b.2)) ai bi ids >>=
        fun _ => Step.verifyAll (E.withH H) r (hs ++ ids.map fun i => ⟨i, (at' hs b.2).numVars⟩) := fun H =>
      (finalJoin_returns _).trans (by simp only [etake])
    simp only [ev]
    rw [show 2 ^ N + 2 ^ (colAt W0 a.2).nv = 2 ^ N + 2 ^ (tableCommOf (a.1.map (at' hs), at' hs a.2)).numVars by rw [← hz.2 a.2]; rfl]
    refine (finalJoin_snd (E := E) (N := N) (ai := ai) (bi := bi) h2 hn L.sane (L.knownTab ka) (L.knownTab kb) kids (by rw [hlen, hla]) (by rw [hla]; exact hai)).bind fun _ s2 L2 => ?_
    have L12 := L.trans L2
    have ih := program_soundF h2 hn (prog := r) (hs := hs ++ ids.map fun i => ⟨i, (at' hs b.2).numVars⟩) (W0 := (Step.join a b ai bi : Step F).next W0) L2.sane
      (k.append L12 fun x hx => by
        obtain ⟨i, hi, rfl⟩ := List.mem_map.1 hx
        exact L2.known (kids i hi))
      (by
        have := hz.append (nv := (colAt W0 b.2).nv) (xs := ids.map fun i => (⟨i, (at' hs b.2).numVars⟩ : TPoly))
          (Ts := a.1.map fun c => moved (colAt W0 c).val (partners (tabData (colAt W0) a) (tabData (colAt W0) b) ai bi) (colAt W0 b.2).val) (by simp [hlen])
          (by
            intro x hx
            obtain ⟨i, hi, rfl⟩ := List.mem_map.1 hx
            exact hz.2 b.2)
        simpa [Step.next, List.map_map, Function.comp_def] using this) hf
    refine ih.mono L2.sane fun P _ h hj hc W hW => ⟨cs, hcs, fun c hcm => ?_, fun Ts hTs => ?_⟩
    · obtain ⟨i, hi, rfl⟩ := List.getElem_of_mem hcm
      obtain ⟨c', h1, h3⟩ := hc i (by rw [hla, ← hcs]; exact hi)
      rw [List.getElem?_eq_getElem hi] at h1
      exact ⟨_, by rw [h3, ← h1]⟩
    · have hlw : W.length = W0.length := by rw [← hW.1, hz.1]
      have hW1 := hW.later hS L k
      have vat : ∀ i ∈ a.1 ++ a.2 :: (b.1 ++ [b.2]), VOk s1 P N (at' hs) (colAt W) i := fun i hi => hW1.2 i (hlw ▸ (hN i hi).1)
      have vb := vat b.2 (by simp)
      have esz : ∀ i j, (colAt W0 i).nv = (colAt W0 j).nv → (at' hs i).numVars = (at' hs j).numVars := fun i j e => by rw [hz.2, hz.2, e]
      have hTs' : HoldsCols s1 P N (colAt W b.2).nv ids Ts := holdsCols_received vb.2.1 (vids P) hTs
      refine ⟨hj _ _ _ (holdsTab_of (φ := at' hs) (W := colAt W) (t := a) (fun i hi => vat i (by simp [hi])) (vat a.2 (by simp)) fun i hi => esz i a.2 (ea i hi))
        (holdsTab_of (φ := at' hs) (W := colAt W) (t := b) (fun i hi => vat i (by simp [hi])) vb fun i hi => esz i b.2 (eb i hi)) hTs', ?_⟩
      have hall := (hW1.later L.sane L2 fun x hx => L.known (k x hx)).append ((holdsCols_later L2 L.sane kids).2 hTs')
      refine h _ ?_
      rw [vb.1]
      exact hall

end Zksql
