import Verif.Lemmas.SetTabs
import Verif.Lemmas.HonestTables
import Verif.Spec.TableRuns
/-! Soundness of the table protocols. -/
set_option linter.unusedSectionVars false
namespace Zksql
open Spec
variable {F C B : Type} [Field F] [DecidableEq F]
variable {E : Env F C} {s s' : VSt F C B} {N : Nat} {P : C → List F → F}
variable {α : Type} {Concl : CompiledProof F C B → (C → List F → F) → Prop} {bounds : List Nat}

theorem Later.knownTab (h : Later s s') {t : TableComm} (k : KnownTab s t) : KnownTab s' t := ⟨fun c hc => h.known (k.1 c hc), h.known k.2⟩

/-- The handles have these values on the hypercube. -/
def ValsL (s : VSt F C B) (P : C → List F → F) (N : Nat) : List Nat → List (Nat → F) → Prop := List.Forall₂ (Vals s P N)

theorem Later.valsL (h : Later s s') (hs : Sane s) : ∀ {cs : List Nat} {Ts : List (Nat → F)}, (∀ c ∈ cs, Known s c) → (ValsL s' P N cs Ts ↔ ValsL s P N cs Ts)
  | [], Ts, _ => by cases Ts <;> simp [ValsL]
  | c :: cs, [], _ => by simp [ValsL]
  | c :: cs, T :: Ts, k => by
    have := Later.valsL h hs (cs := cs) (Ts := Ts) fun c hc => k c (List.mem_cons_of_mem _ hc)
    unfold ValsL at this ⊢
    rw [List.forall₂_cons, List.forall₂_cons, h.vals hs (k c (List.mem_cons_self ..)), this]

theorem Spec.HoldsCols.valsL {cs : List Nat} {nv : Nat} {Ts : List (Nat → F)} (h : HoldsCols s P N nv cs Ts) : ValsL s P N cs (Ts.map (rep nv)) := by
  induction cs generalizing Ts with
  | nil => cases Ts with
    | nil => exact .nil
    | cons => exact h.elim
  | cons c cs ih => cases Ts with
    | nil => exact h.elim
    | cons T Ts => exact .cons h.1.2 (ih h.2)

theorem holdsCols_later (h : Later s s') (hs : Sane s) {nv : Nat} : ∀ {cs : List Nat} {Ts : List (Nat → F)}, (∀ c ∈ cs, Known s c) →
    (HoldsCols s' P N nv cs Ts ↔ HoldsCols s P N nv cs Ts)
  | [], [], _ => Iff.rfl
  | [], _ :: _, _ => Iff.rfl
  | _ :: _, [], _ => Iff.rfl
  | c :: cs, T :: Ts, k => by
    have := holdsCols_later h hs (nv := nv) (cs := cs) (Ts := Ts) fun c hc => k c (List.mem_cons_of_mem _ hc)
    simp only [HoldsCols, h.holds hs (k c (List.mem_cons_self ..)), this]

/-- The aggregating loop of the verifier. -/
theorem step_agg {K : Nat → Oracle F C → Act (VSt F C B) α} : ∀ {s : VSt F C B} {a : Nat} {cs : List Nat} {rs : List F}, Sane s → Known s a → (∀ c ∈ cs, Known s c) →
    (∀ x s1, Later s s1 → Known s1 x → (∀ P S Ts, Vals s P N a S → ValsL s P N cs Ts → Vals s1 P N x (aggVal S Ts rs)) → cs.length ≤ rs.length → SoundF (K x) s1 N bounds Concl) →
    SoundF (fun H => IndexTransform.verifierAggLoop a cs rs >>= fun x => K x H) s N bounds Concl
  | s, a, [], rs, hs, ka, _, h => by
    simp only [IndexTransform.verifierAggLoop, pure_bind]
    refine h a s (Later.refl hs) ka (fun P S Ts hS hT => ?_) (Nat.zero_le _)
    obtain rfl : Ts = [] := by cases hT; rfl
    exact hS
  | s, a, c :: cs, [], hs, ka, _, h => by
    simp only [IndexTransform.verifierAggLoop]
    exact SoundI.fail fun _ H t x s' e => by
      rw [Act.bind_error (m := Act.lift (.error .panic)) (s := t) (s' := t) (e := .panic) rfl] at e
      simp at e
  | s, a, c :: cs, r :: rs, hs, ka, kc, h => by
    simp only [IndexTransform.verifierAggLoop, Act.bind_assoc]
    refine step_mulScalar hs (kc c (List.mem_cons_self ..)) fun x s1 q1 l1 => ?_
    refine step_mul q1.sane (q1.known ka) (known_look l1) fun y s2 q2 l2 => ?_
    have q := q1.toLater.trans q2.toLater
    refine step_agg q2.sane (known_look l2) (fun d hd => q.known (kc d (List.mem_cons_of_mem _ hd))) fun z s3 L3 k3 v3 n3 => ?_
    refine h z s3 (q.trans L3) k3 (fun P S Ts hS hT => ?_) (by simpa using n3)
    cases hT with
    | cons h1 h2 =>
      refine v3 P _ _ (vals_mul q2.sane l2 ?_ ?_) ((q.valsL hs fun d hd => kc d (List.mem_cons_of_mem _ hd)).2 h2)
      · exact (q.vals hs ka).2 hS
      · exact (q2.vals q1.sane (known_look l1)).2 (vals_mulScalar q1.sane l1 ((q1.vals hs (kc c (List.mem_cons_self ..))).2 h1))

theorem valsL_length {cs : List Nat} {Ts : List (Nat → F)} (h : ValsL s P N cs Ts) : cs.length = Ts.length := List.Forall₂.length_eq h

/-- What the index-transform check establishes about the values on the hypercube. -/
theorem indexTransform_raw {ci co : TableComm} (h2 : (2 : F) ≠ 0) (hs : Sane s) (ki : KnownTab s ci) (ko : KnownTab s co) (D : Nat) :
    Snd (fun H => IndexTransform.verify (E.withH H) ci co) s N [1, D] fun P => ∀ (A : TabData F) (σ : Nat → F) (Os : List (Nat → F)),
      HoldsTab s P N ci A → Vals s P N co.selector σ → ValsL s P N co.colVals Os → Os.length = A.cols.length →
      (∀ c : F, (imgOf N fun b => σ b * (c * (Os.map fun T => T b).prod)).card + 2 ^ A.nv ≤ D) →
      ∃ c : F, c ≠ 0 ∧ ∀ z, cw N (fun b => σ b * (c * (Os.map fun T => T b).prod)) σ z ≠ 0 → ∃ j, A.On j ∧ A.sel j * (c * (A.row j).prod) = z := by
  intro β K b2 Concl hK
  unfold IndexTransform.verify IndexTransform.verifierPowers IndexTransform.verifierAgg
  simp only [Act.bind_assoc, pure_bind]
  refine SoundF.chal (D := 1) hs (fun _ => {0}) (fun _ => by simp) (fun _ _ _ => rfl) fun r s1 L1 => ?_
  refine step_agg L1.sane (L1.known ki.2) (fun c hc => L1.known (ki.1 c hc)) fun x s2 L2 k2 v2 n2 => ?_
  have M2 := L1.trans L2
  refine step_agg L2.sane (M2.known ko.2) (fun c hc => M2.known (ko.1 c hc)) fun y s3 L3 k3 v3 n3 => ?_
  have M3 := M2.trans L3
  refine (inclusion_sound (N := N) (f := ⟨y, co.selector, co.numVars⟩) (g := ⟨x, ci.selector, ci.numVars⟩) L3.sane ⟨k3, M3.known ko.2⟩ ⟨L3.known k2, M3.known ki.2⟩ D).bind
    fun _ s4 L4 => ?_
  refine (hK () s4 (M3.trans L4)).mono L4.sane fun P _ hC hI hr => hC fun A σ Os hA hσ hO hl hD => ?_
  have hr : r ≠ 0 := by simpa using hr
  have hlen : ci.colVals.length = A.cols.length := by simpa using valsL_length hA.cols.valsL
  have vx : Vals s2 P N x (aggVal (rep A.nv A.sel) (A.cols.map (rep A.nv)) (IndexTransform.powers r ci.colVals.length)) := v2 P _ _ ((L1.vals hs ki.2).2 hA.sel.2) ((L1.valsL hs ki.1).2 hA.cols.valsL)
  have vy := v3 P _ _ ((M2.vals hs ko.2).2 hσ) ((M2.valsL hs ko.1).2 hO)
  set rs := IndexTransform.powers r ci.colVals.length with hrs
  have hrl : rs.length = A.cols.length := by rw [hrs, powers_length, hlen]
  have ex : ∀ b, aggVal (rep A.nv A.sel) (A.cols.map (rep A.nv)) rs b = A.sel (b % 2 ^ A.nv) * (rs.prod * (A.row (b % 2 ^ A.nv)).prod) := by
    intro b
    rw [aggVal_eq b _ _ _ (by simp [hrl]), List.take_of_length_le (by simp [hrl]), List.map_map]
    rfl
  have ey : ∀ b, aggVal σ Os rs b = σ b * (rs.prod * (Os.map fun T => T b).prod) := by
    intro b
    rw [aggVal_eq b _ _ _ (by rw [hrl, hl]), List.take_of_length_le (by rw [hrl, hl])]
  rw [show aggVal σ Os rs = _ from funext ey] at vy
  obtain ⟨μ, hI⟩ := hI _ σ _ (rep A.nv A.sel) vy ((M3.vals hs ko.2).2 hσ) ((L3.vals L2.sane k2).2 vx) ((M3.vals hs ki.2).2 hA.sel.2) (by
    refine le_trans (Nat.add_le_add_left ?_ _) (hD rs.prod)
    rw [show aggVal (rep A.nv A.sel) (A.cols.map (rep A.nv)) rs = rep A.nv fun j => A.sel j * (rs.prod * (A.row j).prod) from funext ex]
    exact img_rep hA.sel.1 _)
  refine ⟨rs.prod, ?_, fun z hz => ?_⟩
  · have := pow_prod_ne hr ci.colVals.length ci.colVals.length
    rwa [List.take_of_length_le (by rw [powers_length])] at this
  · have := mul_ne_zero (scl_ne h2 (max co.numVars ci.numVars) co.numVars) hz
    rw [hI z] at this
    obtain ⟨b, _, e, h0⟩ := cw_ne_zero (right_ne_zero_of_mul this)
    exact ⟨b % 2 ^ A.nv, ⟨Nat.mod_lt _ (by positivity), right_ne_zero_of_mul h0⟩, (ex b).symm.trans e⟩

/-- The products of the rows on the hypercube, when the selector is Boolean there. -/
theorem rowProducts {σ : Nat → F} {Os : List (Nat → F)} {A : TabData F} {c : F} (hc : c ≠ 0) (hσ : ∀ b < 2 ^ N, σ b = 0 ∨ σ b = 1) (hn : NatsNonzero F (2 ^ N))
    (h : ∀ z, cw N (fun b => σ b * (c * (Os.map fun T => T b).prod)) σ z ≠ 0 → ∃ j, A.On j ∧ A.sel j * (c * (A.row j).prod) = z) {b : Nat} (hb : b < 2 ^ N)
    (h0 : σ b ≠ 0) : ∃ j, A.On j ∧ A.sel j * (A.row j).prod = (Os.map fun T => T b).prod := by
  have h1 : σ b = 1 := (hσ b hb).resolve_left h0
  obtain ⟨j, hj, e⟩ := h (c * (Os.map fun T => T b).prod) (cw_boolean hσ hn hb h0 (by rw [h1, one_mul]))
  refine ⟨j, hj, mul_left_cancel₀ hc ?_⟩
  rw [← e]; ring

theorem prod_rep {nv : Nat} (Ts : List (Nat → F)) (b : Nat) : ((Ts.map (rep nv)).map fun T => T b).prod = (Ts.map fun T => T (b % 2 ^ nv)).prod := by
  rw [List.map_map]; rfl

/-- What the index-transform check establishes about two tables. -/
theorem indexTransform_tabs {ci co : TableComm} (h2 : (2 : F) ≠ 0) (hs : Sane s) (ki : KnownTab s ci) (ko : KnownTab s co) :
    Snd (fun H => IndexTransform.verify (E.withH H) ci co) s N [1, 2 ^ co.numVars + 2 ^ ci.numVars] fun P => ∀ A O : TabData F,
      HoldsTab s P N ci A → HoldsTab s P N co O → O.cols.length = A.cols.length → O.Boolean → NatsNonzero F (2 ^ O.nv) →
      ∀ i, O.On i → ∃ j, A.On j ∧ A.sel j * (A.row j).prod = (O.row i).prod := by
  refine (indexTransform_raw (N := N) h2 hs ki ko _).mono hs fun P _ h A O hA hO hl hb hn i hi => ?_
  have hrep : ∀ c : F, (fun b => rep O.nv O.sel b * (c * ((O.cols.map (rep O.nv)).map fun T => T b).prod)) = rep O.nv fun j => O.sel j * (c * (O.row j).prod) := by
    intro c; funext b; rw [prod_rep]; rfl
  obtain ⟨c, hc, h⟩ := h A _ _ hA hO.sel.2 hO.cols.valsL (by simpa using hl) fun c => by
    have := img_rep hO.sel.1 fun j => O.sel j * (c * (O.row j).prod)
    show (imgOf N (fun b => rep O.nv O.sel b * (c * ((O.cols.map (rep O.nv)).map fun T => T b).prod))).card + _ ≤ _
    rw [hrep, hO.nv, hA.nv]; omega
  have h1 : O.sel i = 1 := (hb i hi.1).resolve_left hi.2
  obtain ⟨j, hj, e⟩ := h (c * (O.row i).prod) (by
    show cw N (fun b => rep O.nv O.sel b * (c * ((O.cols.map (rep O.nv)).map fun T => T b).prod)) (rep O.nv O.sel) _ ≠ 0
    rw [hrep]
    exact (cw_rep_ne h2 (t := ⟨O.nv, fun j => O.sel j * (c * (O.row j).prod), O.sel⟩) hO.sel.1 _).2
      ((active_iff_weight (t := ⟨O.nv, fun j => O.sel j * (c * (O.row j).prod), O.sel⟩) hb hn _).1 ⟨i, hi.1, hi.2, by show O.sel i * _ = _; rw [h1, one_mul]⟩))
  refine ⟨j, hj, mul_left_cancel₀ hc ?_⟩
  rw [← e]; ring

/-! ### One-to-many join -/

theorem step_lift {β : Type} {x : Res β} {K : β → Oracle F C → Act (VSt F C B) α} (h : ∀ b, x = .ok b → SoundF (K b) s N bounds Concl) :
    SoundF (fun H => Act.lift x >>= fun b => K b H) s N bounds Concl := by
  rcases x with e | b
  · exact SoundI.fail fun _ H t a s' e' => by
      rw [Act.bind_error (m := Act.lift (.error e)) (s := t) (s' := t) (e := e) rfl] at e'
      simp at e'
  · exact h b rfl

theorem valsL_append {cs ds : List Nat} {Ts Us : List (Nat → F)} (h : ValsL s P N cs Ts) (h' : ValsL s P N ds Us) : ValsL s P N (cs ++ ds) (Ts ++ Us) :=
  List.rel_append h h'

theorem valsL_get {cs : List Nat} {Ts : List (Nat → F)} {i c : Nat} (h : ValsL s P N cs Ts) (hi : idx cs i = .ok c) : Vals s P N c (Ts.getD i fun _ => 0) := by
  induction h generalizing i with
  | nil => simp [idx] at hi
  | @cons d T cs Ts h1 _ ih =>
    cases i with
    | zero =>
      obtain rfl : d = c := Except.ok.inj hi
      exact h1
    | succ i => exact ih (i := i) hi

theorem idx_mem {l : List α} {i : Nat} {a : α} (h : idx l i = .ok a) : a ∈ l := by
  unfold idx unwrap at h
  split at h
  · rename_i x hx
    obtain rfl := Except.ok.inj h
    exact List.mem_of_getElem? hx
  · cases h

/-- What the join check establishes about the values on the hypercube. -/
theorem finalJoin_raw {a b : TableComm} {ai bi : Nat} {ta : List Nat} (h2 : (2 : F) ≠ 0) (hs : Sane s) (ka : KnownTab s a) (kb : KnownTab s b)
    (kt : ∀ c ∈ ta, Known s c) (hta : ta.length = a.colVals.length) (D : Nat) :
    Snd (fun H => FinalJoin.verifyWithAdvice (E.withH H) a b ai bi ta) s N [1, D] fun P => ∀ (A : TabData F) (σ : Nat → F) (Ms Ts : List (Nat → F)),
      HoldsTab s P N a A → Vals s P N b.selector σ → ValsL s P N ta Ms → ValsL s P N b.colVals Ts →
      (∀ c : F, (imgOf N fun b => σ b * (c * (Ms.map fun T => T b).prod)).card + 2 ^ A.nv ≤ D) →
      (∃ c : F, c ≠ 0 ∧ ∀ z, cw N (fun b => σ b * (c * (Ms.map fun T => T b).prod)) σ z ≠ 0 → ∃ j, A.On j ∧ A.sel j * (c * (A.row j).prod) = z) ∧
      ∀ i < 2 ^ N, σ i ≠ 0 → (Ms ++ Ts).getD ai (fun _ => 0) i = (Ms ++ Ts).getD (A.cols.length + bi) (fun _ => 0) i := by
  intro β K b2 Concl hK
  unfold FinalJoin.verifyWithAdvice
  simp only [Act.bind_assoc, pure_bind]
  refine step_lift fun cols hcols => ?_
  obtain rfl : ta = cols := by
    unfold FinalJoin.prefixOf at hcols
    rw [if_neg (by simp [hta])] at hcols
    rw [← Except.ok.inj hcols, ← hta, List.take_left']
    rfl
  refine (indexTransform_raw (N := N) (co := ⟨ta, b.selector, b.numVars⟩) h2 hs ka ⟨kt, kb.2⟩ D).bind fun _ s1 L1 => ?_
  have kall : ∀ c ∈ ta ++ b.colVals, Known s c := fun c hc => (List.mem_append.1 hc).elim (kt c) (kb.1 c)
  refine step_lift fun ja hja => ?_
  refine step_lift fun jb hjb => ?_
  have kja := kall ja (idx_mem hja)
  have kjb := kall jb (idx_mem hjb)
  refine step_sub L1.sane (L1.known kja) (L1.known kjb) fun d s2 q2 l2 => ?_
  have M2 := L1.trans q2.toLater
  refine step_mul q2.sane (known_look l2) (M2.known kb.2) fun x s3 q3 l3 => ?_
  refine step_zeroClaim q3.sane (known_look l3) fun s4 q4 h4 => ?_
  have M4 := M2.trans (q3.toLater.trans q4.toLater)
  refine (hK _ s4 M4).mono q4.sane fun P hP hC hI => hC fun A σ Ms Ts hA hσ hM hT hD => ?_
  have hl : Ms.length = A.cols.length := by
    rw [← valsL_length hM, hta, valsL_length hA.cols.valsL, List.length_map]
  refine ⟨hI A σ Ms hA hσ hM hl hD, fun i hi h0 => ?_⟩
  have hall := valsL_append hM hT
  have v3 := vals_mul q3.sane l3 ((q3.vals q2.sane (known_look l2)).2 (vals_sub q2.sane l2 ((M2.vals hs kja).2 (valsL_get hall hja)) ((M2.vals hs kjb).2 (valsL_get hall hjb))))
    (((M2.trans q3.toLater).vals hs kb.2).2 hσ)
  have := hP.zero h4 ((q4.vals q3.sane (known_look l3)).2 v3) hi
  rcases mul_eq_zero.1 this with h | h
  · rw [hl.symm.trans (valsL_length hM).symm, hta] at *
    exact sub_eq_zero.1 h
  · exact absurd h h0

theorem SoundF.ofEq {V V' : Oracle F C → Act (VSt F C B) α} (h : SoundF V s N bounds Concl) (e : V = V') : SoundF V' s N bounds Concl := e ▸ h

/-- Receiving columns. -/
theorem step_transferAll {K : List Nat → Oracle F C → Act (VSt F C B) α} : ∀ (n : Nat) {s : VSt F C B} {Concl : CompiledProof F C B → (C → List F → F) → Prop}, Sane s →
    (∀ ids s1 (cs : List C), Later s s1 → ids = List.range' s.own.idCounter n → (∀ i ∈ ids, Known s1 i) →
      (∀ P, ValsL s1 P N ids (cs.map fun c b => P c (boolPt N b))) →
      SoundF (K ids) s1 N bounds fun pf P => (∀ k < n, ∃ c, cs[k]? = some c ∧ pf.comms.lookup (s.own.idCounter + k) = some c) → Concl pf P) →
    SoundF (fun H => FinalJoin.transferAll (E.withH H) n >>= fun x => K x H) s N bounds Concl
  | 0, s, Concl, hs, h => by
    simp only [FinalJoin.transferAll, pure_bind]
    exact (h [] s [] (Later.refl hs) rfl (by simp) fun P => .nil).mono hs fun P _ h => h (by simp)
  | n + 1, s, Concl, hs, h => by
    simp only [FinalJoin.transferAll, Act.bind_assoc, pure_bind]
    refine step_transferP hs fun x c s1 q1 l1 m1 e1 e2 => ?_
    subst e1
    refine step_transferAll n q1.sane fun ids s2 cs L2 hids kids vids => ?_
    rw [e2] at hids
    refine (h (s.own.idCounter :: ids) s2 (c :: cs) (q1.toLater.trans L2) (by rw [hids]; rfl) ?_ ?_).mono L2.sane fun P _ hC hrest hfirst => hC fun k hk => ?_
    · intro i hi
      rcases List.mem_cons.1 hi with rfl | hi
      · exact L2.known (known_look l1)
      · exact kids i hi
    · exact fun P => .cons ((L2.vals q1.sane (known_look l1)).2 (vals_query q1.sane l1 m1)) (vids P)
    · cases k with
      | zero => exact ⟨c, rfl, hfirst⟩
      | succ k =>
        obtain ⟨d, h1, h2⟩ := hrest k (by omega)
        exact ⟨d, by simpa using h1, by rw [e2] at h2; rw [← h2]; congr 1; omega⟩

/-! ### Group by -/

/-- One challenge for each requested sum. -/
def gbBounds (D : Nat) : List (Nat × AggType × Nat) → List Nat
  | [] => []
  | (_, .sum, _) :: r => D :: gbBounds D r
  | _ :: r => gbBounds D r

theorem verifyAggs_sound {inp : TableComm} {pre grp : BagComm} {mult D : Nat} {K : List Nat → Oracle F C → Act (VSt F C B) α} (kin : ∀ c ∈ inp.colVals, Known s c)
    (kp : KnownBag s pre) (kg : KnownBag s grp) (hnv : pre.numVars = grp.numVars) (hs0 : Sane s) :
    ∀ {aggs : List (Nat × AggType × Nat)} {cols : List Nat} {s1 : VSt F C B} {Concl : CompiledProof F C B → (C → List F → F) → Prop}, Sane s1 → Later s s1 → (∀ e ∈ aggs, Known s e.2.2) →
    (∀ x s2, Later s1 s2 → SoundF (K x) s2 N bounds fun pf P =>
      (∀ e ∈ aggs, e.2.1 = .sum → ∀ Tk σk Tg σg (Ts : List (Nat → F)) Tp, Vals s P N pre.poly Tk → Vals s P N pre.selector σk → Vals s P N grp.poly Tg → Vals s P N grp.selector σg →
        ValsL s P N inp.colVals Ts → Vals s P N e.2.2 Tp → (imgOf N Tk).card + (imgOf N Tg).card ≤ D →
        ∀ z, cw N Tk (fun i => Ts.getD e.1 (fun _ => 0) i * σk i) z = cw N Tg (fun i => Tp i * σg i) z) → Concl pf P) →
    SoundF (fun H => GroupBy.verifyAggs (E.withH H) inp pre grp mult aggs cols >>= fun x => K x H) s1 N (gbBounds D aggs ++ bounds) Concl
  | [], cols, s1, Concl, hs, _, _, h => by
    simp only [GroupBy.verifyAggs, pure_bind]
    exact (h cols s1 (Later.refl hs)).mono hs fun P _ h => h (by simp)
  | (c, .count, p) :: r, cols, s1, Concl, hs, L, ka, h => by
    simp only [GroupBy.verifyAggs, gbBounds]
    refine verifyAggs_sound kin kp kg hnv hs0 hs L (fun e he => ka e (List.mem_cons_of_mem _ he)) fun x s2 L2 => ?_
    refine (h x s2 L2).mono L2.sane fun P _ hC hr => hC fun e he hsum => ?_
    rcases List.mem_cons.1 he with rfl | he
    · simp at hsum
    · exact hr e he hsum
  | (c, .sum, p) :: r, cols, s1, Concl, hs, L, ka, h => by
    simp only [GroupBy.verifyAggs, gbBounds, Act.bind_assoc]
    refine step_lift fun x hx => ?_
    have kx := kin x (idx_mem hx)
    have kpp := ka _ (List.mem_cons_self ..)
    refine (pair_sound (N := N) (f := pre) (g := grp) (mf := x) (mg := p) hs (L.knownBag kp) (L.known kx) (L.knownBag kg) (L.known kpp) D).bind fun _ s2 L2 => ?_
    refine verifyAggs_sound kin kp kg hnv hs0 L2.sane (L.trans L2) (fun e he => ka e (List.mem_cons_of_mem _ he)) fun y s3 L3 => ?_
    refine (h y s3 (L2.trans L3)).mono L3.sane fun P _ hC hr hp => hC fun e he hsum => ?_
    rcases List.mem_cons.1 he with rfl | he
    · intro Tk σk Tg σg Ts Tp h1 h2 h3 h4 h5 h6 hD z
      have := hp ⟨Tk, σk, Ts.getD c fun _ => 0⟩ ⟨Tg, σg, Tp⟩ ⟨(L.vals hs0 kp.1).2 h1, (L.vals hs0 kp.2).2 h2, (L.vals hs0 kx).2 (valsL_get h5 hx)⟩
        ⟨(L.vals hs0 kg.1).2 h3, (L.vals hs0 kg.2).2 h4, (L.vals hs0 kpp).2 h6⟩ hD z
      rw [hnv, max_self, Nat.sub_self, pow_zero, inv_one, one_mul, one_mul] at this
      exact this
    · exact hr e he hsum
  | (_, .avg, _) :: _, _, _, _, _, _, _, _ => by
    simp only [GroupBy.verifyAggs]
    exact step_lift (x := .error .panic) fun b hb => by cases hb
  | (_, .min, _) :: _, _, _, _, _, _, _, _ => by
    simp only [GroupBy.verifyAggs]
    exact step_lift (x := .error .panic) fun b hb => by cases hb
  | (_, .max, _) :: _, _, _, _, _, _, _, _ => by
    simp only [GroupBy.verifyAggs]
    exact step_lift (x := .error .panic) fun b hb => by cases hb

theorem validate_inv {H : Type} {n : Nat} {i : GroupInstr H} {x : Nat × H} (h : GroupBy.validate n i = .ok x) :
    ∃ l l', i.groupingCols = x.1 :: l ∧ i.supportCols = x.2 :: l' ∧ l = [] ∧ x.1 < n := by
  unfold GroupBy.validate at h
  split at h
  · cases h
  · rename_i h1
    rcases i with ⟨gc, sc, ss, sm, ag⟩
    cases gc with
    | nil => cases h
    | cons g l =>
      simp only [idx, unwrap, List.getElem?_cons_zero] at h
      change (if n ≤ g then _ else _) = _ at h
      split at h
      · cases h
      · rename_i h2
        split at h
        · cases h
        · cases sc with
          | nil => cases h
          | cons c l' =>
            obtain rfl : (g, c) = x := Except.ok.inj h
            refine ⟨l, l', rfl, rfl, ?_, by omega⟩
            cases l with
            | nil => rfl
            | cons => simp at h1

/-- What the group-by check establishes about the values on the hypercube. -/
theorem groupBy_raw {inp : TableComm} {i : GroupInstr Nat} {range : BagComm} (h2 : (2 : F) ≠ 0) (hn : NatsNonzero F (2 ^ inp.numVars)) (hs : Sane s)
    (ki : KnownTab s inp) (kr : KnownRequest s i) (kR : Known s range.poly) (D : Nat) :
    Snd (fun H => GroupBy.verifyWithAdvice (E.withH H) inp i range) s N
      ([D, (2 * 2 ^ inp.numVars) * (2 * 2 ^ inp.numVars), 2 * 2 ^ inp.numVars, 2 ^ inp.numVars + 2 ^ range.numVars] ++ gbBounds D i.aggs) fun P =>
      N = inp.numVars ∧ ∃ key c, i.groupingCols = [key] ∧ i.supportCols.head? = some c ∧ key < inp.colVals.length ∧
      ∀ (σ : Nat → F) (Ts : List (Nat → F)) Tg σg μ R, Vals s P N inp.selector σ → ValsL s P N inp.colVals Ts → Vals s P N c Tg → Vals s P N i.supportSel σg →
        Vals s P N i.supportMult μ → Vals s P N range.poly R → (imgOf N R).card ≤ 2 ^ range.numVars → (imgOf N (Ts.getD key fun _ => 0)).card + (imgOf N Tg).card ≤ D →
        SortFacts N Tg σg R ∧ (∀ b < 2 ^ N, σg b ≠ 0 → μ b ≠ 0) ∧
        (∀ z, cw N (Ts.getD key fun _ => 0) σ z = cw N Tg (fun b => μ b * σg b) z) ∧
        ∀ e ∈ i.aggs, e.2.1 = .sum → ∀ Tp, Vals s P N e.2.2 Tp →
          ∀ z, cw N (Ts.getD key fun _ => 0) (fun b => Ts.getD e.1 (fun _ => 0) b * σ b) z = cw N Tg (fun b => Tp b * σg b) z := by
  intro β K b2 Concl hK
  unfold GroupBy.verifyWithAdvice
  simp only [Act.bind_assoc, pure_bind]
  refine step_lift fun x hx => ?_
  obtain ⟨l, l', e1, e2, rfl, hlt⟩ := validate_inv hx
  refine step_lift fun c hc => ?_
  have kc := ki.1 c (idx_mem hc)
  have kx := kr.1 x.2 (by rw [e2]; exact List.mem_cons_self ..)
  rw [List.append_assoc]
  refine (supp_sound (N := N) (bag := ⟨c, inp.selector, inp.numVars⟩) (supp := ⟨x.2, i.supportSel, inp.numVars⟩) h2 hn hs ⟨kc, ki.2⟩ ⟨kx, kr.2.1⟩ kr.2.2.1 kR D).bind
    fun _ s1 L1 => ?_
  refine verifyAggs_sound (pre := ⟨c, inp.selector, inp.numVars⟩) (grp := ⟨x.2, i.supportSel, inp.numVars⟩) (D := D) ki.1 ⟨kc, ki.2⟩ ⟨kx, kr.2.1⟩ rfl hs L1.sane L1 kr.2.2.2
    fun y s2 L2 => ?_
  refine (hK _ s2 (L1.trans L2)).mono L2.sane fun P _ hC hag hsu => hC ⟨hsu.1, x.1, x.2, e1, by rw [e2]; rfl, hlt, ?_⟩
  intro σ Ts Tg σg μ R h1 h2' h3 h4 h5 h6 hR hD
  have vk : Vals s P N c (Ts.getD x.1 fun _ => 0) := valsL_get h2' hc
  obtain ⟨i1, i2, i3⟩ := hsu.2 _ _ _ _ _ _ vk h1 h3 h4 h5 h6 hR hD
  refine ⟨i1, i2, fun z => ?_, fun e he hsum Tp hTp z => hag e he hsum _ _ _ _ Ts Tp vk h1 h3 h4 h2' hTp hD z⟩
  exact mul_left_cancel₀ (scl_ne h2 _ _) (i3 z)

end Zksql
