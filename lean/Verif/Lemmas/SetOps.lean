import Verif.Lemmas.SetTabs
/-! Soundness of set difference, set intersection and join reduction, from the checks they are made of. -/
set_option linter.unusedSectionVars false
namespace Zksql
open Spec
variable {F C B α β : Type} [Field F] [DecidableEq F]
variable {E : Env F C} {s s' : VSt F C B} {N : Nat} {P : C → List F → F}

/-- A sound call followed by one that may use that its state was reached by the first. -/
theorem Snd.bind' {V : Oracle F C → Act (VSt F C B) α} {b1 b2 : List Nat} {C1 : (C → List F → F) → Prop}
    {Concl : CompiledProof F C B → (C → List F → F) → Prop} {K : α → Oracle F C → Act (VSt F C B) β} (h : Snd V s N b1 C1)
    (hK : ∀ a s1, Later s s1 → (∃ H pf sc pf' sc', V H (s.upd pf sc) = (.ok a, s1.upd pf' sc')) → SoundF (K a) s1 N b2 fun pf P => C1 P → Concl pf P) :
    SoundF (fun H => V H >>= fun a => K a H) s N (b1 ++ b2) Concl := by
  classical
  have key := h β (fun a H t => if ∃ H' pf sc, V H' (s.upd pf sc) = (.ok a, t) then K a H t else (.error .panic, t)) b2 Concl (fun a s1 L => by
    by_cases hr : ∃ H pf sc pf' sc', V H (s.upd pf sc) = (.ok a, s1.upd pf' sc')
    · obtain ⟨bad, hb⟩ := hK a s1 L hr
      refine ⟨bad, fun i pf sc hsc H b s' e => hb i pf sc hsc H b s' ?_⟩
      beta_reduce at e
      split at e
      · exact e
      · simp at e
    · refine ⟨fun _ _ => ∅, fun i pf sc hsc H b s' e => ?_⟩
      beta_reduce at e
      split at e
      · rename_i hc
        obtain ⟨H', pf', sc', hc⟩ := hc
        exact absurd ⟨H', pf', sc', pf, sc, hc⟩ hr
      · simp at e)
  obtain ⟨bad, hb⟩ := key
  refine ⟨bad, fun i pf sc hsc H b s' e => hb i pf sc hsc H b s' ?_⟩
  obtain ⟨a, s1, e1, e2⟩ := Act.bind_eq_ok.1 e
  refine Act.bind_eq_ok.2 ⟨a, s1, e1, ?_⟩
  show (if ∃ H' pf sc, V H' (s.upd pf sc) = (.ok a, s1) then K a H s1 else (.error .panic, s1)) = _
  rw [if_pos ⟨H, pf, sc, e1⟩, e2]

/-! ### Identifiers taken by a call -/

/-- A successful call takes `k` identifiers and leaves the proof alone. -/
def Takes (k : Nat) (m : Act (VSt F C B) α) : Prop :=
  ∀ s a s', m s = (.ok a, s') → s'.own.idCounter = s.own.idCounter + k ∧ s'.own.proof = s.own.proof

theorem Takes.bind {m : Act (VSt F C B) α} {f : α → Act (VSt F C B) β} {k l : Nat} (h : Takes k m) (hf : ∀ a, Takes l (f a)) : Takes (k + l) (m >>= f) := by
  intro s b s' e
  obtain ⟨a, s1, e1, e2⟩ := Act.bind_eq_ok.1 e
  obtain ⟨a1, a2⟩ := h _ _ _ e1
  obtain ⟨b1, b2⟩ := hf a _ _ _ e2
  exact ⟨by omega, by rw [b2, a2]⟩

theorem takes_pure (a : α) : Takes 0 (pure a : Act (VSt F C B) α) := by
  intro s b s' e
  obtain ⟨-, rfl⟩ := Prod.mk.inj e
  exact ⟨rfl, rfl⟩

theorem takes_lift (r : Res α) : Takes 0 (Act.lift r : Act (VSt F C B) α) := by
  intro s b s' e
  obtain ⟨-, rfl⟩ := Prod.mk.inj e
  exact ⟨rfl, rfl⟩

theorem takes_virtual (c : VComm F) : Takes (F := F) (C := C) (B := B) 1 (VSt.trackVirtual c) := by
  intro s b s' e
  rw [VSt.trackVirtual_run] at e
  obtain ⟨-, rfl⟩ := Prod.mk.inj e
  exact ⟨rfl, rfl⟩

theorem takes_addScalar (i : Nat) (c : F) : Takes (F := F) (C := C) (B := B) 2 (VSt.addScalar i c) := by
  intro s b s' e
  rw [VSt.addScalar_run] at e
  obtain ⟨-, rfl⟩ := Prod.mk.inj e
  exact ⟨rfl, rfl⟩

theorem takes_transfer (d : Bool) : Takes (F := F) (C := C) (B := B) 1 (VSt.getNextId >>= fun id => VSt.transferComm d id) := by
  intro s b s' e
  obtain ⟨id, s0, e0, e⟩ := Act.bind_eq_ok.1 e
  obtain ⟨a, rfl⟩ := Prod.mk.inj e0
  obtain ⟨c, hc, rfl, rfl⟩ := transferComm_inv e
  exact ⟨rfl, rfl⟩

theorem takes_challenge (H : Oracle F C) (l : String) : Takes (F := F) (C := C) (B := B) 0 (VSt.challenge H l) := by
  intro s b s' e
  unfold VSt.challenge Transcript.challenge at e
  by_cases he : s.own.transcript.isEmpty
  · simp [he] at e
  · simp only [he, Bool.false_eq_true, if_false] at e
    obtain ⟨-, rfl⟩ := Prod.mk.inj e
    exact ⟨rfl, rfl⟩

theorem takes_claimedSum (i : Nat) : Takes (F := F) (C := C) (B := B) 0 (VSt.claimedSum i) := by
  intro s b s' e
  unfold VSt.claimedSum at e
  obtain ⟨-, rfl⟩ := Prod.mk.inj e
  exact ⟨rfl, rfl⟩

theorem takes_addSumClaim (i : Nat) (v : F) : Takes (F := F) (C := C) (B := B) 0 (VSt.addSumClaim i v) := by
  intro s b s' e
  obtain ⟨-, rfl⟩ := Prod.mk.inj e
  exact ⟨rfl, rfl⟩

theorem takes_addZeroClaim (i : Nat) : Takes (F := F) (C := C) (B := B) 0 (VSt.addZeroClaim i) := by
  intro s b s' e
  obtain ⟨-, rfl⟩ := Prod.mk.inj e
  exact ⟨rfl, rfl⟩

theorem takes_verifySub (bag : BagComm) (m : Nat) (γ : F) : Takes (F := F) (C := C) (B := B) 8 (Multitool.verifySub E bag m γ) := by
  have := ((takes_transfer (F := F) (C := C) (B := B) E.debug).bind fun phat => (takes_virtual (.mul phat m)).bind fun pm => (takes_virtual (.mul pm bag.selector)).bind fun sc =>
    (takes_virtual (.mul bag.poly phat)).bind fun pp => (takes_virtual (.mulScalar phat γ)).bind fun gp => (takes_virtual (.sub pp gp)).bind fun d =>
    (takes_addScalar d (-1)).bind fun ck => (takes_claimedSum sc).bind fun v => (takes_addSumClaim sc v).bind fun _ => (takes_addZeroClaim ck).bind fun _ =>
    takes_pure v)
  rw [Act.bind_assoc] at this
  exact this

theorem takes_verifySubs (γ : F) (top : Nat) (l : List (BagComm × Nat)) (acc : F) :
    Takes (F := F) (C := C) (B := B) (8 * l.length) (Multitool.verifySubs E γ top l acc) := by
  induction l generalizing acc with
  | nil => exact takes_pure acc
  | cons q l ih =>
    have := (takes_verifySub (E := E) (B := B) q.1 q.2 γ).bind fun v => (takes_lift (Multitool.divPow2 v (top - q.1.numVars))).bind fun adj => ih (acc + adj)
    rw [List.length_cons, show 8 * (l.length + 1) = 8 + (0 + 8 * l.length) by omega]
    exact this

theorem takes_bagSum (f0 f1 g : BagComm) : Takes (F := F) (C := C) (B := B) 27 (BagSum.verify E f0 f1 g) := by
  have mt : ∀ one : Nat, Takes (F := F) (C := C) (B := B) 24 (Multitool.verify E [f0, f1] [g] [one, one] [one]) := by
    intro one
    unfold Multitool.verify
    rw [if_neg (by simp), if_neg (by simp)]
    refine (takes_challenge E.H "gamma").bind (l := 24) fun γ => (takes_verifySubs γ _ [(f0, one), (f1, one)] 0).bind (l := 8) fun lhs =>
      (takes_verifySubs γ _ [(g, one)] 0).bind (l := 0) fun rhs => ?_
    split
    · exact takes_pure ()
    · exact takes_lift _
  exact (takes_virtual (oneFn F)).bind (l := 26) fun one => (takes_virtual (oneFn F)).bind (l := 25) fun _ => (takes_virtual (oneFn F)).bind (l := 24) fun _ => mt one

/-! ### Set difference -/

theorem setDiff_sound {a b l m range : BagComm} {bm : Nat} (h2 : (2 : F) ≠ 0) (hn : NatsNonzero F (2 ^ (max l.numVars b.numVars + 1))) (hs : Sane s)
    (ka : KnownBag s a) (kb : KnownBag s b) (kl : KnownBag s l) (km : KnownBag s m) (kbm : Known s bm) (kr : Known s range.poly) :
    SndP (fun H => SetDiff.verify (E.withH H) a b l m bm range) s N
      (setDisjointBounds l.numVars b.numVars range.numVars ++ ([2 ^ l.numVars + 2 ^ m.numVars + 2 ^ a.numVars] ++ [2 ^ m.numVars + 2 ^ b.numVars])) fun pf P =>
      ∀ M, HoldsRange s P N range M → NatsNonzero F (2 ^ (max l.numVars b.numVars + 1) * M) → CommBoolean pf (s.own.idCounter + 1) P N →
        ∀ (ta tb tl tm : BagTab F) (μ : Nat → F), HoldsBag s P N a ta → HoldsBag s P N b tb → HoldsBag s P N l tl → HoldsBag s P N m tm → Vals s P N bm μ →
          tl.Boolean → tb.Boolean → (∀ z, ¬(tl.Active z ∧ tb.Active z)) ∧
            (∀ z, tl.weight (fun _ => 1) z + tm.weight (fun _ => 1) z = ta.weight (fun _ => 1) z) ∧ ∀ z, tm.weight (fun _ => 1) z ≠ 0 → tb.Active z := by
  intro β K b2 Concl hK
  unfold SetDiff.verify
  simp only [Act.bind_assoc]
  rw [List.append_assoc, List.append_assoc]
  refine (setDisjoint_tabs (N := N) h2 hn hs kl kb kr).bind fun _ s1 L1 => ?_
  refine (bagSum_tabs (N := N) h2 L1.sane (L1.knownBag kl) (L1.knownBag km) (L1.knownBag ka)).bind fun _ s2 L2 => ?_
  have L12 := L1.trans L2
  refine (inclusionAdvice_tabs (N := N) h2 L2.sane (L12.knownBag km) (L12.knownBag kb) (L12.known kbm)).bind fun _ s3 L3 => ?_
  refine (hK () s3 (L12.trans L3)).mono L3.sane fun P _ hC i3 i2 i1 => hC fun M hr hM hbool ta tb tl tm μ va vb vl vm vμ bl bb => ⟨?_, ?_, ?_⟩
  · exact i1.2 M hr hM hbool tl tb vl vb bl bb
  · exact i2 tl tm ta ((L1.holdsBag hs kl).2 vl) ((L1.holdsBag hs km).2 vm) ((L1.holdsBag hs ka).2 va)
  · exact i3 tm tb μ ((L12.holdsBag hs km).2 vm) ((L12.holdsBag hs kb).2 vb) ((L12.vals hs kbm).2 vμ)

/-! ### Set intersection -/

theorem setIntersect_sound {a b l m r range : BagComm} (h2 : (2 : F) ≠ 0) (hn : NatsNonzero F (2 ^ (max l.numVars r.numVars + 1))) (hs : Sane s)
    (ka : KnownBag s a) (kb : KnownBag s b) (kl : KnownBag s l) (km : KnownBag s m) (krr : KnownBag s r) (kr : Known s range.poly) :
    SndP (fun H => SetIntersect.verify (E.withH H) a b l m r range) s N
      ([2 ^ l.numVars + 2 ^ m.numVars + 2 ^ a.numVars] ++ ([2 ^ m.numVars + 2 ^ r.numVars + 2 ^ b.numVars] ++
        setDisjointBounds l.numVars r.numVars range.numVars)) fun pf P =>
      ∀ M, HoldsRange s P N range M → NatsNonzero F (2 ^ (max l.numVars r.numVars + 1) * M) → CommBoolean pf (s.own.idCounter + 55) P N →
        ∀ ta tb tl tm tr : BagTab F, HoldsBag s P N a ta → HoldsBag s P N b tb → HoldsBag s P N l tl → HoldsBag s P N m tm → HoldsBag s P N r tr →
          tl.Boolean → tr.Boolean → (∀ z, ¬(tl.Active z ∧ tr.Active z)) ∧
            (∀ z, tl.weight (fun _ => 1) z + tm.weight (fun _ => 1) z = ta.weight (fun _ => 1) z) ∧
            ∀ z, tm.weight (fun _ => 1) z + tr.weight (fun _ => 1) z = tb.weight (fun _ => 1) z := by
  intro β K b2 Concl hK
  unfold SetIntersect.verify
  simp only [Act.bind_assoc]
  rw [List.append_assoc, List.append_assoc]
  refine (bagSum_tabs (N := N) h2 hs kl km ka).bind' fun _ s1 L1 e1 => ?_
  refine (bagSum_tabs (N := N) h2 L1.sane (L1.knownBag km) (L1.knownBag krr) (L1.knownBag kb)).bind' fun _ s2 L2 e2 => ?_
  obtain ⟨H1, pf1, sc1, pf1', sc1', e1⟩ := e1
  obtain ⟨H2, pf2, sc2, pf2', sc2', e2⟩ := e2
  have c1 : s1.own.idCounter = s.own.idCounter + 27 := (takes_bagSum _ _ _ _ _ _ e1).1
  have c2 : s2.own.idCounter = s1.own.idCounter + 27 := (takes_bagSum _ _ _ _ _ _ e2).1
  have L12 := L1.trans L2
  refine (setDisjoint_tabs (N := N) h2 hn L2.sane (L12.knownBag kl) (L12.knownBag krr) (L12.known kr)).bind fun _ s3 L3 => ?_
  refine (hK () s3 (L12.trans L3)).mono L3.sane fun P _ hC i3 i2 i1 => hC fun M hr hM hbool ta tb tl tm tr va vb vl vm vr bl br => ⟨?_, ?_, ?_⟩
  · refine i3.2 M ((L12.holdsRange hs kr).2 hr) hM ?_ tl tr ((L12.holdsBag hs kl).2 vl) ((L12.holdsBag hs krr).2 vr) bl br
    intro c hc
    rw [c2, c1] at hc
    exact hbool c hc
  · exact i1 tl tm ta vl vm va
  · exact i2 tm tr tb ((L1.holdsBag hs km).2 vm) ((L1.holdsBag hs krr).2 vr) ((L1.holdsBag hs kb).2 vb)

/-! ### Join reduction -/

/-- A sound call that draws no challenge, followed by another. -/
theorem Snd.bind0 {V : Oracle F C → Act (VSt F C B) α} {b2 : List Nat} {C1 : (C → List F → F) → Prop} {Concl : CompiledProof F C B → (C → List F → F) → Prop} {K : α → Oracle F C → Act (VSt F C B) β}
    (h : Snd V s N [] C1) (hK : ∀ a s1, Later s s1 → SoundF (K a) s1 N b2 fun pf P => C1 P → Concl pf P) :
    SoundF (fun H => V H >>= fun a => K a H) s N b2 Concl := h.bind hK

theorem disjoint_tabs' {a b range : BagComm} (h2 : (2 : F) ≠ 0) (hn : NatsNonzero F (2 ^ (max a.numVars b.numVars + 1))) (hs : Sane s)
    (ka : KnownBag s a) (kb : KnownBag s b) (kr : Known s range.poly) :
    Snd (fun H => Disjoint.verify (E.withH H) a b range) s N (disjointBounds a.numVars b.numVars range.numVars) fun P =>
      N = max a.numVars b.numVars + 1 ∧ ∀ M, HoldsRange s P N range M → NatsNonzero F (2 ^ (max a.numVars b.numVars + 1) * M) →
        ∀ ta tb : BagTab F, HoldsBag s P N a ta → HoldsBag s P N b tb →
        ∀ z, ¬(ta.weight (fun _ => 1) z ≠ 0 ∧ tb.weight (fun _ => 1) z ≠ 0) := disjoint_tabs h2 hn hs ka kb kr

theorem holds_mul {i j h nv : Nat} {T U : Nat → F} (hs : Sane s) (hl : s.sh.comms.lookup h = some (.mul i j)) (h1 : Holds s P N i nv T) (h2 : Holds s P N j nv U) :
    Holds s P N h nv fun b => T b * U b := ⟨h1.1, vals_mul hs hl h1.2 h2.2⟩

theorem holds_oneMinus {i j h nv : Nat} {T : Nat → F} (hs : Sane s) (hj : s.sh.comms.lookup j = some (.mulScalar i (-1)))
    (hl : s.sh.comms.lookup h = some (.addScalar j 1)) (h1 : Holds s P N i nv T) : Holds s P N h nv fun b => 1 - T b := by
  refine ⟨h1.1, (vals_addScalar hs hl (vals_mulScalar hs hj h1.2)).congr fun b _ => ?_⟩
  ring

theorem joinReduction_sound {a b range : BagComm} {lSel rSel : Nat} (h2 : (2 : F) ≠ 0) (hn : NatsNonzero F (2 ^ (max a.numVars b.numVars + 1))) (hs : Sane s)
    (ka : KnownBag s a) (kb : KnownBag s b) (kl : Known s lSel) (kr : Known s rSel) (krg : Known s range.poly) :
    Snd (fun H => JoinReduction.verify (E.withH H) a b lSel rSel range) s N
      (disjointBounds a.numVars b.numVars range.numVars ++ (disjointBounds a.numVars a.numVars range.numVars ++
        (disjointBounds b.numVars b.numVars range.numVars ++ ([2 ^ a.numVars + 2 ^ b.numVars] ++ [2 ^ b.numVars + 2 ^ a.numVars])))) fun P =>
      (N = a.numVars + 1 ∧ N = b.numVars + 1) ∧ ∀ M, 0 < M → HoldsRange s P N range M → NatsNonzero F (2 ^ (max a.numVars b.numVars + 1) * M) →
        ∀ (ta tb : BagTab F) (L R : Nat → F), HoldsBag s P N a ta → HoldsBag s P N b tb → Holds s P N lSel ta.nv L → Holds s P N rSel tb.nv R →
          ta.Boolean → tb.Boolean → (∀ i < 2 ^ ta.nv, L i = 0 ∨ L i = 1) ∧ (∀ i < 2 ^ tb.nv, R i = 0 ∨ R i = 1) ∧
            (∀ i < 2 ^ ta.nv, ta.sel i ≠ 0 → (L i = 1 ↔ ¬tb.Active (ta.val i))) ∧ ∀ i < 2 ^ tb.nv, tb.sel i ≠ 0 → (R i = 1 ↔ ¬ta.Active (tb.val i)) := by
  intro β K b2 Concl hK
  unfold JoinReduction.verify
  obtain ⟨ka1, ka2⟩ := ka
  obtain ⟨kb1, kb2⟩ := kb
  simp only [Act.bind_assoc]
  simp only [List.append_assoc]
  refine step_mulScalar hs (by later) fun nl s1 q1 l1 => ?_
  refine step_addScalar q1.sane (by later) fun maSel s2 q2 l2 => ?_
  refine step_mulScalar q2.sane (by later) fun nr s3 q3 l3 => ?_
  refine step_addScalar q3.sane (by later) fun mbSel s4 q4 l4 => ?_
  refine step_mul q4.sane (by later) (by later) fun x1 s5 q5 l5 => ?_
  refine step_mul q5.sane (by later) (by later) fun x2 s6 q6 l6 => ?_
  refine step_mul q6.sane (by later) (by later) fun x3 s7 q7 l7 => ?_
  refine step_mul q7.sane (by later) (by later) fun x4 s8 q8 l8 => ?_
  have w : Whole s s8 := ⟨q1.trans (q2.trans (q3.trans (q4.trans (q5.trans (q6.trans (q7.trans q8))))))⟩
  have hs8 := q8.sane
  have k8 : Known s8 lSel ∧ Known s8 rSel ∧ Known s8 range.poly ∧ KnownBag s8 ⟨a.poly, x1, a.numVars⟩ ∧ KnownBag s8 ⟨b.poly, x2, b.numVars⟩ ∧
      KnownBag s8 ⟨a.poly, x3, a.numVars⟩ ∧ KnownBag s8 ⟨b.poly, x4, b.numVars⟩ :=
    ⟨by later, by later, by later, ⟨by later, by later⟩, ⟨by later, by later⟩, ⟨by later, by later⟩, ⟨by later, by later⟩⟩
  obtain ⟨kl8, kr8, krg8, kla, krb, kma, kmb⟩ := k8
  have hna : NatsNonzero F (2 ^ (max a.numVars a.numVars + 1)) := fun i h1 h2 => hn i h1 (h2.trans (Nat.pow_le_pow_right (by norm_num) (by omega)))
  have hnb : NatsNonzero F (2 ^ (max b.numVars b.numVars + 1)) := fun i h1 h2 => hn i h1 (h2.trans (Nat.pow_le_pow_right (by norm_num) (by omega)))
  refine (selectorValid_sound (N := N) hs8 kl8).bind0 fun _ s9 L9 => ?_
  refine (selectorValid_sound (N := N) L9.sane (L9.known kr8)).bind0 fun _ s10 L10' => ?_
  have L10 := L9.trans L10'
  refine (disjoint_tabs' (N := N) (a := ⟨a.poly, x1, a.numVars⟩) (b := ⟨b.poly, x2, b.numVars⟩) h2 hn L10.sane (L10.knownBag kla) (L10.knownBag krb) (L10.known krg8)).bind fun _ s11 L11' => ?_
  have L11 := L10.trans L11'
  refine (disjoint_tabs' (N := N) (a := ⟨a.poly, x1, a.numVars⟩) (b := ⟨a.poly, x3, a.numVars⟩) h2 hna L11.sane (L11.knownBag kla) (L11.knownBag kma) (L11.known krg8)).bind fun _ s12 L12' => ?_
  have L12 := L11.trans L12'
  refine (disjoint_tabs' (N := N) (a := ⟨b.poly, x2, b.numVars⟩) (b := ⟨b.poly, x4, b.numVars⟩) h2 hnb L12.sane (L12.knownBag krb) (L12.knownBag kmb) (L12.known krg8)).bind fun _ s13 L13' => ?_
  have L13 := L12.trans L13'
  refine (inclusion_tabs (N := N) (f := ⟨a.poly, x3, a.numVars⟩) (g := ⟨b.poly, x4, b.numVars⟩) h2 L13.sane (L13.knownBag kma) (L13.knownBag kmb)).bind fun _ s14 L14' => ?_
  have L14 := L13.trans L14'
  refine (inclusion_tabs (N := N) (f := ⟨b.poly, x4, b.numVars⟩) (g := ⟨a.poly, x3, a.numVars⟩) h2 L14.sane (L14.knownBag kmb) (L14.knownBag kma)).bind fun _ s15 L15' => ?_
  refine (hK () s15 ((w.q.toLater.trans L14).trans L15')).mono L15'.sane fun P _ hC i2 i1 d3 d2 d1 vr vl => hC ⟨⟨by simpa using d2.1, by simpa using d3.1⟩, fun M hM hr hnM ta tb L R va vb hL hR ba bb => ?_⟩
  have hL8 := (w.q.holds hs kl).2 hL
  have hR8 := (w.q.holds hs kr).2 hR
  have va8 : Holds s8 P N a.poly ta.nv ta.val := (w.q.holds hs ka1).2 va.val
  have vas8 : Holds s8 P N a.selector ta.nv ta.sel := (w.q.holds hs ka2).2 va.sel
  have vb8 : Holds s8 P N b.poly tb.nv tb.val := (w.q.holds hs kb1).2 vb.val
  have vbs8 : Holds s8 P N b.selector tb.nv tb.sel := (w.q.holds hs kb2).2 vb.sel
  have hr8 := (w.q.holdsRange hs krg).2 hr
  have hma := holds_oneMinus hs8 (j := nl) (h := maSel) (by later) (by later) hL8
  have hmb := holds_oneMinus hs8 (j := nr) (h := mbSel) (by later) (by later) hR8
  have bl : HoldsBag s8 P N ⟨a.poly, x1, a.numVars⟩ (ta.restrict L) := ⟨va.nv, va8, holds_mul hs8 (by later) vas8 hL8⟩
  have br : HoldsBag s8 P N ⟨b.poly, x2, b.numVars⟩ (tb.restrict R) := ⟨vb.nv, vb8, holds_mul hs8 (by later) vbs8 hR8⟩
  have bma : HoldsBag s8 P N ⟨a.poly, x3, a.numVars⟩ (ta.restrict fun i => 1 - L i) := ⟨va.nv, va8, holds_mul hs8 (by later) vas8 hma⟩
  have bmb : HoldsBag s8 P N ⟨b.poly, x4, b.numVars⟩ (tb.restrict fun i => 1 - R i) := ⟨vb.nv, vb8, holds_mul hs8 (by later) vbs8 hmb⟩
  have hLb : ∀ i < 2 ^ ta.nv, L i = 0 ∨ L i = 1 := fun i hi => by
    have := vl _ hL8.2 i (lt_of_lt_of_le hi (Nat.pow_le_pow_right (by norm_num) va.le))
    simpa [Nat.mod_eq_of_lt hi] using this
  have hRb : ∀ i < 2 ^ tb.nv, R i = 0 ∨ R i = 1 := fun i hi => by
    have := vr _ ((L9.vals hs8 kr8).2 hR8.2) i (lt_of_lt_of_le hi (Nat.pow_le_pow_right (by norm_num) vb.le))
    simpa [Nat.mod_eq_of_lt hi] using this
  have hLb' : ∀ i < 2 ^ ta.nv, 1 - L i = 0 ∨ 1 - L i = 1 := fun i hi => by rcases hLb i hi with h | h <;> simp [h]
  have hRb' : ∀ i < 2 ^ tb.nv, 1 - R i = 0 ∨ 1 - R i = 1 := fun i hi => by rcases hRb i hi with h | h <;> simp [h]
  have na : NatsNonzero F (2 ^ ta.nv) := fun i h1 h2 => hn i h1 (h2.trans (Nat.pow_le_pow_right (by norm_num) (by have := va.nv; omega)))
  have nb : NatsNonzero F (2 ^ tb.nv) := fun i h1 h2 => hn i h1 (h2.trans (Nat.pow_le_pow_right (by norm_num) (by have := vb.nv; omega)))
  have hnM1 : NatsNonzero F (2 ^ (max a.numVars a.numVars + 1) * M) := fun i h1 h2 =>
    hnM i h1 (h2.trans (Nat.mul_le_mul_right _ (Nat.pow_le_pow_right (by norm_num) (by omega))))
  have hnM2 : NatsNonzero F (2 ^ (max b.numVars b.numVars + 1) * M) := fun i h1 h2 =>
    hnM i h1 (h2.trans (Nat.mul_le_mul_right _ (Nat.pow_le_pow_right (by norm_num) (by omega))))
  have Bl := restrict_boolean ba hLb
  have Br := restrict_boolean bb hRb
  have Bma := restrict_boolean ba hLb'
  have Bmb := restrict_boolean bb hRb'
  have D1 : ∀ z, ¬((ta.restrict L).Active z ∧ (tb.restrict R).Active z) := fun z hz =>
    d1.2 M ((L10.holdsRange hs8 krg8).2 hr8) hnM _ _ ((L10.holdsBag hs8 kla).2 bl) ((L10.holdsBag hs8 krb).2 br) z
      ⟨(active_iff_weight Bl na z).1 hz.1, (active_iff_weight Br nb z).1 hz.2⟩
  have D2 : ∀ z, ¬((ta.restrict L).Active z ∧ (ta.restrict fun i => 1 - L i).Active z) := fun z hz =>
    d2.2 M ((L11.holdsRange hs8 krg8).2 hr8) hnM1 _ _ ((L11.holdsBag hs8 kla).2 bl) ((L11.holdsBag hs8 kma).2 bma) z
      ⟨(active_iff_weight Bl na z).1 hz.1, (active_iff_weight Bma na z).1 hz.2⟩
  have D3 : ∀ z, ¬((tb.restrict R).Active z ∧ (tb.restrict fun i => 1 - R i).Active z) := fun z hz =>
    d3.2 M ((L12.holdsRange hs8 krg8).2 hr8) hnM2 _ _ ((L12.holdsBag hs8 krb).2 br) ((L12.holdsBag hs8 kmb).2 bmb) z
      ⟨(active_iff_weight Br nb z).1 hz.1, (active_iff_weight Bmb nb z).1 hz.2⟩
  have I1 : ∀ z, (ta.restrict fun i => 1 - L i).Active z → (tb.restrict fun i => 1 - R i).Active z := fun z hz =>
    i1 _ _ ((L13.holdsBag hs8 kma).2 bma) ((L13.holdsBag hs8 kmb).2 bmb) z ((active_iff_weight Bma na z).1 hz)
  have I2 : ∀ z, (tb.restrict fun i => 1 - R i).Active z → (ta.restrict fun i => 1 - L i).Active z := fun z hz =>
    i2 _ _ ((L14.holdsBag hs8 kmb).2 bmb) ((L14.holdsBag hs8 kma).2 bma) z ((active_iff_weight Bmb nb z).1 hz)
  refine ⟨hLb, hRb, ?_, ?_⟩
  · intro i hi h0
    constructor
    · rintro h1 ⟨j, hj, hj0, hjz⟩
      have hl : (ta.restrict L).Active (ta.val i) := restrict_active.2 ⟨i, hi, h0, by rw [h1]; exact one_ne_zero, rfl⟩
      rcases hRb j hj with h | h
      · exact D2 _ ⟨hl, I2 _ (restrict_active.2 ⟨j, hj, hj0, by rw [h]; simp, hjz⟩)⟩
      · exact D1 _ ⟨hl, restrict_active.2 ⟨j, hj, hj0, by rw [h]; exact one_ne_zero, hjz⟩⟩
    · intro hna
      rcases hLb i hi with h | h
      · obtain ⟨j, hj, hj0, -, hjz⟩ := restrict_active.1 (I1 _ (restrict_active.2 ⟨i, hi, h0, by rw [h]; simp, rfl⟩))
        exact absurd ⟨j, hj, hj0, hjz⟩ hna
      · exact h
  · intro i hi h0
    constructor
    · rintro h1 ⟨j, hj, hj0, hjz⟩
      have hl : (tb.restrict R).Active (tb.val i) := restrict_active.2 ⟨i, hi, h0, by rw [h1]; exact one_ne_zero, rfl⟩
      rcases hLb j hj with h | h
      · exact D3 _ ⟨hl, I1 _ (restrict_active.2 ⟨j, hj, hj0, by rw [h]; simp, hjz⟩)⟩
      · exact D1 _ ⟨restrict_active.2 ⟨j, hj, hj0, by rw [h]; exact one_ne_zero, hjz⟩, hl⟩
    · intro hna
      rcases hRb i hi with h | h
      · obtain ⟨j, hj, hj0, -, hjz⟩ := restrict_active.1 (I2 _ (restrict_active.2 ⟨i, hi, h0, by rw [h]; simp, rfl⟩))
        exact absurd ⟨j, hj, hj0, hjz⟩ hna
      · exact h

end Zksql
