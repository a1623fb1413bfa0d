import Verif.Lemmas.EndToEnd
import Verif.Props.TableRuns
import Verif.Props.Compile
/-!
C84: honest runs are accepted end to end, with the multilinear KZG scheme.

`RunAccepted` is defined in `Spec/EndToEnd`.  `K` is the curve, `γ`, `η` its generators and `τ` the trapdoor of the setup, so `τ.length` is the number of variables of the setup.
-/
set_option linter.unusedSectionVars false
namespace Zksql
open Spec
variable {F : Type} [Field F] [DecidableEq F] {K : Curve F} {V : Env F K.G1} {γ : K.G1} {η : K.G2} {τ : List F} {N k : Nat} {t : PTracker F K.G1}

/-! ### The general statements -/

/-- C84, the last step.  Take any prover tracker whose recorded claims are true.  `compile_proof` succeeds, and every verifier in step with the prover that holds
the proof accepts in `verify_claims`. -/
theorem C84_accepts (debug : Bool) (H : Oracle F K.G1) (hr : Spec.Ready (kzgCommit (proverParamOf γ η τ)) t) (hk : Compilable t τ.length k N)
    (hd : 1 ≤ k) (hchar : NatsNonzero F (k + 1)) (hs : SumsTrueP t) (hz : ZerosTrueP t) :
    ∃ (p : CompiledProof F K.G1 (BatchProof K)) (bp : BatchProof K), (PTracker.compile debug (kzgOf H γ η τ) H t).1 = .ok p ∧ p.pcsProof = [bp] ∧
      p.scMaxDegree ≤ k + 1 ∧ Carries p t ∧ TrueSums N p t ∧
      ∀ s : VSt F K.G1 (BatchProof K), Sane s → Together t s → s.own.proof = p → Avoids p.scProof.point p.scMaxDegree → Avoids bp.sumCheckProof.point 2 →
        (VSt.verifyClaims (kzgOf H γ η τ) H s).1 = .ok () := compile_true debug H hr hk hd hchar hs hz

/-- C84, any protocol whose two sides fit together (`Completes`, proved of each protocol in its own property). -/
theorem C84_protocol {P : K.G1 → List F → F} {α β : Type} {m : Env F K.G1 → Act (PTracker F K.G1) α} {v : Env F K.G1 → Act (VSt F K.G1 (BatchProof K)) β}
    {bounds : List Nat} {Inputs Contents : VSt F K.G1 (BatchProof K) → Prop} {Valid Fits : Prop} (hV : V.commit = kzgCommit (proverParamOf γ η τ))
    (hd : 1 ≤ k) (hchar : NatsNonzero F (k + 1)) (hc : Completes V P N m v t bounds Inputs Contents Valid Fits) :
    RunAccepted V γ η τ N k m v t bounds Inputs Valid :=
  let ⟨bad, h⟩ := hc
  ⟨bad, h.accepted hV hd hchar⟩

/-- C84, from scratch: new trackers, columns committed by the prover and taken over by the verifier, one protocol, `compile_proof`, `verify_claims`. -/
theorem C84_from_scratch {P : K.G1 → List F → F} {α β : Type} {m : Env F K.G1 → Act (PTracker F K.G1) α} {v : Env F K.G1 → Act (VSt F K.G1 (BatchProof K)) β}
    {cols : List (Mle F)} {bounds : List Nat} {Inputs Contents : VSt F K.G1 (BatchProof K) → Prop} {Valid Fits : Prop} (hV : V.commit = kzgCommit (proverParamOf γ η τ))
    (hd : 1 ≤ k) (hchar : NatsNonzero F (k + 1)) (hcols : ∀ p ∈ cols, p.WF ∧ p.numVars ≤ τ.length) (hne : cols ≠ [])
    (hc : Spec.Ready V.commit (committed V.commit cols) → (∀ i p, cols[i]? = some p → HoldsP (committed V.commit cols) ⟨i, p.numVars⟩ p.tbl) →
      Completes V P N m v (committed V.commit cols) bounds Inputs Contents Valid Fits)
    (hin : ∀ s : VSt F K.G1 (BatchProof K), (∀ i p, cols[i]? = some p → Known s i) → Inputs s) :
    FromScratch V γ η τ N k m v cols bounds Valid := by
  obtain ⟨hr, hp⟩ := committed_ready hV hcols hne
  obtain ⟨bad, h⟩ := hc hr hp
  exact ⟨bad, fromScratch_of hV hd hchar hcols hne (fun _ _ => h) hin⟩

/-! ### The protocols

One corollary for each protocol.  The hypotheses and the data called valid are those of the completeness theorem of the protocol. -/
variable {f g h : Bag} {Tf Tg Th : BagTab F} {range : Bag} {r M : Nat} {ρ : Nat → F} {a b : Table} {A T O : TabData F} {ai bi : Nat}
  {i : GroupInstr TPoly} {R : GroupData F}

/-- C84, the multiset check. -/
theorem C84_multiset (hV : V.commit = kzgCommit (proverParamOf γ η τ)) (hd : 1 ≤ k) (hchar : NatsNonzero F (k + 1)) {fs gs : List (Entry F)} (h2 : (2 : F) ≠ 0) (hNτ : N ≤
    τ.length) (hr : Spec.Ready V.commit t) (hf : fs ≠ []) (hg : gs ≠ []) (he : ∀ e ∈ fs ++ gs, e.HoldsP t) (hN : ∀ e ∈ fs ++ gs, e.tab.nv ≤ N) :
    RunAcceptedOutside (E := K) (fun _ => Side.values ((fs ++ gs).map fun e => (e.tab, e.weights))) V γ η τ N k
      (fun V => Multitool.prove V (fs.map (·.bag)) (gs.map (·.bag)) (fs.map (·.mult)) (gs.map (·.mult)))
      (fun V => Multitool.verify V (fs.map fun e => sameBag e.bag) (gs.map fun e => sameBag e.bag) (fs.map (·.mult.id)) (gs.map (·.mult.id)))
      t [((fs ++ gs).map fun e => 2 ^ e.tab.nv).sum] (fun s => ∀ e ∈ fs ++ gs, e.Known s)
      (∀ z, Side.total (fs.map fun e => (e.tab, e.weights)) z = Side.total (gs.map fun e => (e.tab, e.weights)) z) :=
  Spec.CompletesOutside.accepted hV hd hchar (C52_multiset_complete (P := fun _ _ => 0) h2 (hV ▸ kzg_canCommit hNτ) hr hf hg he hN)

/-- C84, bag equality. -/
theorem C84_bag_equality (hV : V.commit = kzgCommit (proverParamOf γ η τ)) (hd : 1 ≤ k) (hchar : NatsNonzero F (k + 1)) (h2 : (2 : F) ≠ 0) (hNτ : N ≤ τ.length) (hr :
    Spec.Ready V.commit t) (hf : HoldsBagP t f Tf) (hg : HoldsBagP t g Tg) (hn : Tf.nv = Tg.nv) (hN : Tf.nv ≤ N) :
    RunAccepted (E := K) V γ η τ N k (fun V => BagEq.prove V f g)
      (fun V => BagEq.verify V (sameBag f) (sameBag g)) t
      [2 ^ Tf.nv + 2 ^ Tg.nv]
      (fun s => KnownBag s (sameBag f) ∧ KnownBag s (sameBag g))
      (∀ z, Tf.weight (fun _ => 1) z = Tg.weight (fun _ => 1) z) :=
  C84_protocol hV hd hchar (C55_bag_equality_complete (P := fun _ _ => 0) h2 (hV ▸ kzg_canCommit hNτ) hr hf hg hn hN)

/-- C84, bag sum. -/
theorem C84_bag_sum (hV : V.commit = kzgCommit (proverParamOf γ η τ)) (hd : 1 ≤ k) (hchar : NatsNonzero F (k + 1)) (h2 : (2 : F) ≠ 0) (hNτ : N ≤ τ.length) (hr :
    Spec.Ready V.commit t) (hf : HoldsBagP t f Tf) (hg : HoldsBagP t g Tg) (hh : HoldsBagP t h Th) (hNf : Tf.nv ≤ N) (hNg : Tg.nv ≤ N) (hNh : Th.nv ≤ N) :
    RunAccepted (E := K) V γ η τ N k (fun V => BagSum.prove V f g h)
      (fun V => BagSum.verify V (sameBag f) (sameBag g) (sameBag h)) t
      [2 ^ Tf.nv + 2 ^ Tg.nv + 2 ^ Th.nv]
      (fun s => KnownBag s (sameBag f) ∧ KnownBag s (sameBag g) ∧ KnownBag s (sameBag h))
      (∀ z, Tf.weight (fun _ => 1) z + Tg.weight (fun _ => 1) z = Th.weight (fun _ => 1) z) :=
  C84_protocol hV hd hchar (C56_bag_sum_complete (P := fun _ _ => 0) h2 (hV ▸ kzg_canCommit hNτ) hr hf hg hh hNf hNg hNh)

/-- C84, inclusion. -/
theorem C84_inclusion (hV : V.commit = kzgCommit (proverParamOf γ η τ)) (hd : 1 ≤ k) (hchar : NatsNonzero F (k + 1)) (h2 : (2 : F) ≠ 0) (hNτ : N ≤ τ.length) (hr :
    Spec.Ready V.commit t) (hf : HoldsBagP t f Tf) (hg : HoldsBagP t g Tg) (hNf : Tf.nv ≤ N) (hNg : Tg.nv ≤ N) :
    RunAccepted (E := K) V γ η τ N k (fun V => Inclusion.prove V f g)
      (fun V => Inclusion.verify V (sameBag f) (sameBag g)) t
      [2 ^ Tf.nv + 2 ^ Tg.nv]
      (fun s => KnownBag s (sameBag f) ∧ KnownBag s (sameBag g))
      (Tf.Boolean ∧ Tg.Boolean ∧ ∀ z, Tf.Active z → Tg.Active z) :=
  C84_protocol hV hd hchar (C57_inclusion_complete (P := fun _ _ => 0) h2 (hV ▸ kzg_canCommit hNτ) hr hf hg hNf hNg)

/-- C84, inclusion with given multiplicities. -/
theorem C84_inclusion_advice (hV : V.commit = kzgCommit (proverParamOf γ η τ)) (hd : 1 ≤ k) (hchar : NatsNonzero F (k + 1)) {m : TPoly} {M : Nat → F} (h2 : (2 : F) ≠ 0)
    (hNτ : N ≤ τ.length) (hr : Spec.Ready V.commit t) (hf : HoldsBagP t f Tf) (hg : HoldsBagP t g Tg) (hm : HoldsP t m M) (hmn : m.numVars = Tg.nv) (hNf : Tf.nv ≤ N) (hNg
    : Tg.nv ≤ N) :
    RunAccepted (E := K) V γ η τ N k (fun V => Inclusion.proveWithAdvice V f g m)
      (fun V => Inclusion.verifyWithAdvice V (sameBag f) (sameBag g) m.id) t
      [2 ^ Tf.nv + 2 ^ Tg.nv]
      (fun s => KnownBag s (sameBag f) ∧ KnownBag s (sameBag g) ∧ Known s m.id)
      (∀ z, Tf.weight (fun _ => 1) z = Tg.weight M z) :=
  C84_protocol hV hd hchar (C57_inclusion_advice_complete (P := fun _ _ => 0) h2 (hV ▸ kzg_canCommit hNτ) hr hf hg hm hmn hNf hNg)

/-- C84, no zeros. -/
theorem C84_no_zeros (hV : V.commit = kzgCommit (proverParamOf γ η τ)) (hd : 1 ≤ k) (hchar : NatsNonzero F (k + 1)) (hNτ : N ≤ τ.length) (hr : Spec.Ready V.commit t) (hf
    : HoldsBagP t f Tf) (hNf : Tf.nv ≤ N) :
    RunAccepted (E := K) V γ η τ N k (fun V => NoZeros.prove V f)
      (fun V => NoZeros.verify V (sameBag f)) t
      []
      (fun s => KnownBag s (sameBag f))
      (∀ i < 2 ^ Tf.nv, Tf.sel i ≠ 0 → Tf.val i ≠ 0) :=
  C84_protocol hV hd hchar (C59_no_zeros_complete (P := fun _ _ => 0) (hV ▸ kzg_canCommit hNτ) hr hf hNf)

/-- C84, valid selector. -/
theorem C84_selector_valid (hV : V.commit = kzgCommit (proverParamOf γ η τ)) (hd : 1 ≤ k) (hchar : NatsNonzero F (k + 1)) {m : TPoly} {M : Nat → F} {nv : Nat} (hr :
    Spec.Ready V.commit t) (hm : HoldsP t m M) (hn : m.numVars = nv) :
    RunAccepted (E := K) V γ η τ N k (fun _ => SelectorValid.prove m)
      (fun _ => SelectorValid.verify m.id) t
      []
      (fun s => Known s m.id)
      (∀ i < 2 ^ nv, M i = 0 ∨ M i = 1) :=
  C84_protocol hV hd hchar (C60_selector_valid_complete (P := fun _ _ => 0) hr hm hn)

/-- C84, prescribed permutation. -/
theorem C84_prescribed_permutation (hV : V.commit = kzgCommit (proverParamOf γ η τ)) (hd : 1 ≤ k) (hchar : NatsNonzero F (k + 1)) {perm : TPoly} {p : Nat → F} (h2 : (2 :
    F) ≠ 0) (hNτ : N ≤ τ.length) (hr : Spec.Ready V.commit t) (hf : HoldsBagP t f Tf) (hg : HoldsBagP t g Tg) (hn : Tg.nv = Tf.nv) (hp : HoldsP t perm p) (hpn :
    perm.numVars = Tf.nv) (hN : Tf.nv ≤ N) :
    RunAccepted (E := K) V γ η τ N k (fun V => PrescPerm.prove V f g perm)
      (fun V => PrescPerm.verify V (sameBag f) (sameBag g) perm.id) t
      [0, 2 ^ Tf.nv + 2 ^ Tf.nv]
      (fun s => KnownBag s (sameBag f) ∧ KnownBag s (sameBag g) ∧ Known s perm.id)
      (Permutes Tf.nv Tf.val Tg.val p) :=
  C84_protocol hV hd hchar (C61_prescribed_permutation_complete_partial (P := fun _ _ => 0) h2 (hV ▸ kzg_canCommit hNτ) hr hf hg hn hp hpn hN)

/-- C84, strict sort. -/
theorem C84_strict_sort (hV : V.commit = kzgCommit (proverParamOf γ η τ)) (hd : 1 ≤ k) (hchar : NatsNonzero F (k + 1)) (h2 : (2 : F) ≠ 0) (hNτ : N ≤ τ.length) (hr :
    Spec.Ready V.commit t) (hf : HoldsBagP t f Tf) (hR : HoldsP t range.poly ρ) (hrn : range.poly.numVars = r) (hN : Tf.nv ≤ N) (hNr : r ≤ N) :
    RunAccepted (E := K) V γ η τ N k (fun V => StrictSort.prove V f range)
      (fun V => StrictSort.verify V (sameBag f) (sameBag range)) t
      (hSort Tf.nv r)
      (fun s => KnownBag s (sameBag f) ∧ Known s range.poly.id)
      (SortedIn Tf.nv r Tf.val Tf.sel ρ) :=
  C84_protocol hV hd hchar (C62_strict_sort_complete_partial (P := fun _ _ => 0) h2 (hV ▸ kzg_canCommit hNτ) hr hf hR hrn hN hNr)

/-- C84, support. -/
theorem C84_support (hV : V.commit = kzgCommit (proverParamOf γ η τ)) (hd : 1 ≤ k) (hchar : NatsNonzero F (k + 1)) (h2 : (2 : F) ≠ 0) (hNτ : N ≤ τ.length) (hr :
    Spec.Ready V.commit t) (hf : HoldsBagP t f Tf) (hg : HoldsBagP t g Tg) (hR : HoldsP t range.poly ρ) (hrn : range.poly.numVars = r) (hNf : Tf.nv ≤ N) (hNg : Tg.nv ≤ N)
    (hNr : r ≤ N) :
    RunAccepted (E := K) V γ η τ N k (fun V => Supp.prove V f g range)
      (fun V => Supp.verify V (sameBag f) (sameBag g) (sameBag range)) t
      ([2 ^ Tf.nv + 2 ^ Tg.nv] ++ hSort Tg.nv r)
      (fun s => KnownBag s (sameBag f) ∧ KnownBag s (sameBag g) ∧ Known s range.poly.id)
      (Tf.Boolean ∧ Tg.Boolean ∧ NatsNonzero F (2 ^ Tf.nv) ∧ Tg.Nodup ∧ (∀ z, Tf.Active z ↔ Tg.Active z) ∧ SortedIn Tg.nv r Tg.val Tg.sel ρ) :=
  C84_protocol hV hd hchar (C63_support_complete (P := fun _ _ => 0) h2 (hV ▸ kzg_canCommit hNτ) hr hf hg hR hrn hNf hNg hNr)

/-- C84, disjoint bags. -/
theorem C84_disjoint (hV : V.commit = kzgCommit (proverParamOf γ η τ)) (hd : 1 ≤ k) (hchar : NatsNonzero F (k + 1)) (h2 : (2 : F) ≠ 0) (hNτ : N ≤ τ.length) (hr :
    Spec.Ready V.commit t) (hf : HoldsBagP t f Tf) (hg : HoldsBagP t g Tg) (hR : HoldsP t range.poly ρ) (hrn : range.poly.numVars = r) (hN : max Tf.nv Tg.nv + 1 ≤ N) (hNr
    : r ≤ N) :
    RunAccepted (E := K) V γ η τ N k (fun V => Disjoint.prove V f g range)
      (fun V => Disjoint.verify V (sameBag f) (sameBag g) (sameBag range)) t
      (hDisjoint Tf.nv Tg.nv r)
      (fun s => KnownBag s (sameBag f) ∧ KnownBag s (sameBag g) ∧ Known s range.poly.id)
      (Canonical V.rep ∧ 0 < M ∧ Covers r ρ M ∧ Tf.Below V.rep M ∧ Tg.Below V.rep M ∧ Tf.Boolean ∧ Tg.Boolean ∧ ∀ z, ¬ (Tf.Active z ∧ Tg.Active z)) :=
  C84_protocol hV hd hchar (C65_disjoint_complete_partial (P := fun _ _ => 0) h2 (hV ▸ kzg_canCommit hNτ) hr hf hg hR hrn hN hNr)

/-- C84, disjoint sets. -/
theorem C84_set_disjoint (hV : V.commit = kzgCommit (proverParamOf γ η τ)) (hd : 1 ≤ k) (hchar : NatsNonzero F (k + 1)) (h2 : (2 : F) ≠ 0) (hNτ : N ≤ τ.length) (hr :
    Spec.Ready V.commit t) (hf : HoldsBagP t f Tf) (hg : HoldsBagP t g Tg) (hR : HoldsP t range.poly ρ) (hrn : range.poly.numVars = r) (hN : max Tf.nv Tg.nv + 1 ≤ N) (hNr
    : r ≤ N) :
    RunAccepted (E := K) V γ η τ N k (fun V => SetDisjoint.prove V f g range)
      (fun V => SetDisjoint.verify V (sameBag f) (sameBag g) (sameBag range)) t
      (hSetDisjoint Tf.nv Tg.nv r)
      (fun s => KnownBag s (sameBag f) ∧ KnownBag s (sameBag g) ∧ Known s range.poly.id)
      (Canonical V.rep ∧ 0 < M ∧ Covers r ρ M ∧ Tf.Below V.rep M ∧ Tg.Below V.rep M ∧ Tf.Nodup ∧ Tg.Nodup ∧ ∀ z, ¬ (Tf.Active z ∧ Tg.Active z)) :=
  C84_protocol hV hd hchar (C65_set_disjoint_complete_partial (P := fun _ _ => 0) h2 (hV ▸ kzg_canCommit hNτ) hr hf hg hR hrn hN hNr)

/-- C84, set union. -/
theorem C84_set_union (hV : V.commit = kzgCommit (proverParamOf γ η τ)) (hd : 1 ≤ k) (hchar : NatsNonzero F (k + 1)) {u : Bag} {Tu : BagTab F} (h2 : (2 : F) ≠ 0) (hNτ : N
    ≤ τ.length) (hr : Spec.Ready V.commit t) (hf : HoldsBagP t f Tf) (hg : HoldsBagP t g Tg) (hu : HoldsBagP t u Tu) (hR : HoldsP t range.poly ρ) (hrn :
    range.poly.numVars = r) (hN : max Tf.nv Tg.nv + 1 ≤ N) (hNu : Tu.nv ≤ N) (hNr : r ≤ N) :
    RunAccepted (E := K) V γ η τ N k (fun V => SetUnion.prove V f g u range)
      (fun V => SetUnion.verify V (sameBag f) (sameBag g) (sameBag u) (sameBag range)) t
      (hUnion Tf.nv Tg.nv Tu.nv r)
      (fun s => KnownBag s (sameBag f) ∧ KnownBag s (sameBag g) ∧ KnownBag s (sameBag u) ∧ Known s range.poly.id)
      (Tf.Boolean ∧ Tg.Boolean ∧ Tu.Boolean ∧ NatsNonzero F (2 ^ (max Tf.nv Tg.nv + 1)) ∧ Tu.Nodup ∧ (∀ z, Tf.Active z ∨ Tg.Active z ↔ Tu.Active z) ∧ SortedIn Tu.nv r Tu.val Tu.sel ρ) :=
  C84_protocol hV hd hchar (C66_set_union_complete_partial (P := fun _ _ => 0) h2 (hV ▸ kzg_canCommit hNτ) hr hf hg hu hR hrn hN hNu hNr)

/-- C84, set difference. -/
theorem C84_set_diff (hV : V.commit = kzgCommit (proverParamOf γ η τ)) (hd : 1 ≤ k) (hchar : NatsNonzero F (k + 1)) {l m : Bag} {Tl Tm : BagTab F} {mm : TPoly} {μ : Nat →
    F} (h2 : (2 : F) ≠ 0) (hNτ : N ≤ τ.length) (hr : Spec.Ready V.commit t) (hf : HoldsBagP t f Tf) (hg : HoldsBagP t g Tg) (hl : HoldsBagP t l Tl) (hm : HoldsBagP t m
    Tm) (hmn : mm.numVars = Tg.nv) (hmm : HoldsP t mm μ) (hR : HoldsP t range.poly ρ) (hrn : range.poly.numVars = r) (hN : max Tl.nv Tg.nv + 1 ≤ N) (hNf : Tf.nv ≤ N) (hNm
    : Tm.nv ≤ N) (hNr : r ≤ N) :
    RunAccepted (E := K) V γ η τ N k (fun V => SetDiff.prove V f g l m mm range)
      (fun V => SetDiff.verify V (sameBag f) (sameBag g) (sameBag l) (sameBag m) mm.id (sameBag range)) t
      (hDiff Tf.nv Tg.nv Tl.nv Tm.nv r)
      (fun s => KnownBag s (sameBag f) ∧ KnownBag s (sameBag g) ∧ KnownBag s (sameBag l) ∧ KnownBag s (sameBag m) ∧ Known s mm.id ∧ Known s range.poly.id)
      ((Canonical V.rep ∧ 0 < M ∧ Covers r ρ M ∧ Tl.Below V.rep M ∧ Tg.Below V.rep M ∧ Tl.Nodup ∧ Tg.Nodup ∧ ∀ z, ¬ (Tl.Active z ∧ Tg.Active z)) ∧ (∀ z, Tl.weight (fun _ => 1) z + Tm.weight (fun _ => 1) z = Tf.weight (fun _ => 1) z) ∧ ∀ z, Tm.weight (fun _ => 1) z = Tg.weight μ z) :=
  C84_protocol hV hd hchar (C66_set_diff_complete_partial (P := fun _ _ => 0) h2 (hV ▸ kzg_canCommit hNτ) hr hf hg hl hm hmn hmm hR hrn hN hNf hNm hNr)

/-- C84, set intersection. -/
theorem C84_set_intersect (hV : V.commit = kzgCommit (proverParamOf γ η τ)) (hd : 1 ≤ k) (hchar : NatsNonzero F (k + 1)) {l m e : Bag} {Tl Tm Te : BagTab F} (h2 : (2 : F)
    ≠ 0) (hNτ : N ≤ τ.length) (hr : Spec.Ready V.commit t) (hf : HoldsBagP t f Tf) (hg : HoldsBagP t g Tg) (hl : HoldsBagP t l Tl) (hm : HoldsBagP t m Tm) (he : HoldsBagP
    t e Te) (hR : HoldsP t range.poly ρ) (hrn : range.poly.numVars = r) (hN : max Tl.nv Te.nv + 1 ≤ N) (hNf : Tf.nv ≤ N) (hNg : Tg.nv ≤ N) (hNm : Tm.nv ≤ N) (hNr : r ≤ N)
    :
    RunAccepted (E := K) V γ η τ N k (fun V => SetIntersect.prove V f g l m e range)
      (fun V => SetIntersect.verify V (sameBag f) (sameBag g) (sameBag l) (sameBag m) (sameBag e) (sameBag range)) t
      (hIntersect Tf.nv Tg.nv Tl.nv Tm.nv Te.nv r)
      (fun s => KnownBag s (sameBag f) ∧ KnownBag s (sameBag g) ∧ KnownBag s (sameBag l) ∧ KnownBag s (sameBag m) ∧ KnownBag s (sameBag e) ∧ Known s range.poly.id)
      ((Canonical V.rep ∧ 0 < M ∧ Covers r ρ M ∧ Tl.Below V.rep M ∧ Te.Below V.rep M ∧ Tl.Nodup ∧ Te.Nodup ∧ ∀ z, ¬ (Tl.Active z ∧ Te.Active z)) ∧ (∀ z, Tl.weight (fun _ => 1) z + Tm.weight (fun _ => 1) z = Tf.weight (fun _ => 1) z) ∧ ∀ z, Tm.weight (fun _ => 1) z + Te.weight (fun _ => 1) z = Tg.weight (fun _ => 1) z) :=
  C84_protocol hV hd hchar (C66_set_intersect_complete_partial (P := fun _ _ => 0) h2 (hV ▸ kzg_canCommit hNτ) hr hf hg hl hm he hR hrn hN hNf hNg hNm hNr)

/-- C84, join reduction. -/
theorem C84_join_reduction (hV : V.commit = kzgCommit (proverParamOf γ η τ)) (hd : 1 ≤ k) (hchar : NatsNonzero F (k + 1)) {lSel rSel : TPoly} {ll lr : Nat → F} (h2 : (2 :
    F) ≠ 0) (hNτ : N ≤ τ.length) (hr : Spec.Ready V.commit t) (hf : HoldsBagP t f Tf) (hg : HoldsBagP t g Tg) (hln : lSel.numVars = Tf.nv) (hl : HoldsP t lSel ll) (hsn :
    rSel.numVars = Tg.nv) (hs : HoldsP t rSel lr) (hR : HoldsP t range.poly ρ) (hrn : range.poly.numVars = r) (hN : max Tf.nv Tg.nv + 1 ≤ N) (hNr : r ≤ N) :
    RunAccepted (E := K) V γ η τ N k (fun V => JoinReduction.prove V f g lSel rSel range)
      (fun V => JoinReduction.verify V (sameBag f) (sameBag g) lSel.id rSel.id (sameBag range)) t
      (hJoin Tf.nv Tg.nv r)
      (fun s => KnownBag s (sameBag f) ∧ KnownBag s (sameBag g) ∧ Known s lSel.id ∧ Known s rSel.id ∧ Known s range.poly.id)
      (Canonical V.rep ∧ 0 < M ∧ Covers r ρ M ∧ Tf.Below V.rep M ∧ Tg.Below V.rep M ∧ Tf.Boolean ∧ Tg.Boolean ∧ (∀ i < 2 ^ Tf.nv, ll i = 0 ∨ ll i = 1) ∧ (∀ i < 2 ^ Tg.nv, lr i = 0 ∨ lr i = 1) ∧ (∀ i < 2 ^ Tf.nv, Tf.sel i ≠ 0 → (ll i ≠ 0 ↔ ¬ Tg.Active (Tf.val i))) ∧ (∀ i < 2 ^ Tg.nv, Tg.sel i ≠ 0 → (lr i ≠ 0 ↔ ¬ Tf.Active (Tg.val i)))) :=
  C84_protocol hV hd hchar (C69_join_reduction_complete (P := fun _ _ => 0) h2 (hV ▸ kzg_canCommit hNτ) hr hf hg hln hl hsn hs hR hrn hN hNr)

/-- C84, index transform. -/
theorem C84_index_transform (hV : V.commit = kzgCommit (proverParamOf γ η τ)) (hd : 1 ≤ k) (hchar : NatsNonzero F (k + 1)) (h2 : (2 : F) ≠ 0) (hNτ : N ≤ τ.length) (hr :
    Spec.Ready V.commit t) (ha : HoldsTabP t a A) (hb : HoldsTabP t b O) (hNa : A.nv ≤ N) (hNb : O.nv ≤ N) (hc : O.cols.length = A.cols.length) :
    RunAccepted (E := K) V γ η τ N k (fun V => IndexTransform.prove V a b)
      (fun V => IndexTransform.verify V (sameTab a) (sameTab b)) t
      [0, 2 ^ O.nv + 2 ^ A.nv]
      (fun s => KnownTab s (sameTab a) ∧ KnownTab s (sameTab b))
      (A.Boolean ∧ O.Boolean ∧ ∀ i, O.On i → ∃ j, A.On j ∧ O.row i = A.row j) :=
  C84_protocol hV hd hchar (C81_index_transform_complete (P := fun _ _ => 0) h2 (hV ▸ kzg_canCommit hNτ) hr ha hb hNa hNb hc)

/-- C84, one-to-many join. -/
theorem C84_join (hV : V.commit = kzgCommit (proverParamOf γ η τ)) (hd : 1 ≤ k) (hchar : NatsNonzero F (k + 1)) (h2 : (2 : F) ≠ 0) (hNτ : N ≤ τ.length) (hr : Spec.Ready
    V.commit t) (ha : HoldsTabP t a A) (hb : HoldsTabP t b T) (hNa : A.nv ≤ N) (hNb : T.nv ≤ N) (hai : ai < A.cols.length) (hbi : bi < T.cols.length) (bA : A.Boolean) (bT
    : T.Boolean) (hM : Matched A T ai bi) (hk : V.debug = true → DistinctColumn A ai) :
    RunAccepted (E := K) V γ η τ N k (fun V => FinalJoin.prove V a b ai bi)
      (fun V => FinalJoin.verify V (sameTab a) (sameTab b) ai bi) t
      [0, 2 ^ T.nv + 2 ^ A.nv]
      (fun s => KnownTab s (sameTab a) ∧ KnownTab s (sameTab b))
      True :=
  C84_protocol hV hd hchar (C82_join_complete (P := fun _ _ => 0) h2 (hV ▸ kzg_canCommit hNτ) hr ha hb hNa hNb hai hbi bA bT hM hk)

/-- C84, group by. -/
theorem C84_group_by (hV : V.commit = kzgCommit (proverParamOf γ η τ)) (hd : 1 ≤ k) (hchar : NatsNonzero F (k + 1)) (h2 : (2 : F) ≠ 0) (hNτ : N ≤ τ.length) (hr :
    Spec.Ready V.commit t) (ha : HoldsTabP t a T) (hi : HoldsRequestP t i R) (hR : HoldsP t range.poly ρ) (hrn : range.poly.numVars = r) (hin : R.InRange T) (hn : T.nv =
    R.groups.nv) (hN : R.groups.nv ≤ N) (hNr : r ≤ N) :
    RunAccepted (E := K) V γ η τ N k (fun V => GroupBy.proveWithAdvice V a i range)
      (fun V => GroupBy.verifyWithAdvice V (sameTab a) (sameInstr i) (sameBag range)) t
      ([2 ^ T.nv + 2 ^ R.groups.nv] ++ hSort R.groups.nv r ++ hSums (2 ^ T.nv + 2 ^ R.groups.nv) R)
      (fun s => KnownTab s (sameTab a) ∧ KnownRequest s (sameInstr i) ∧ Known s range.poly.id)
      (T.Boolean ∧ GroupsOf T R ∧ NatsNonzero F (2 ^ T.nv) ∧ SortedIn R.groups.nv r R.groups.val R.groups.sel ρ) :=
  C84_protocol hV hd hchar (C80_group_by_complete_partial (P := fun _ _ => 0) h2 (hV ▸ kzg_canCommit hNτ) hr ha hi hR hrn hin hn hN hNr)

/-! ### A whole run -/

namespace PfEx

/-- Two bags {1, 2} and {2, 1} over a shared column of ones. -/
def cols84 : List (Mle (ZMod 7)) := [⟨1, [1, 2]⟩, ⟨1, [1, 1]⟩, ⟨1, [2, 1]⟩]

/-- Every challenge is 5. -/
def H84 : Oracle (ZMod 7) (ZMod 7) := fun _ _ => 5

/-- Debug checks are on. -/
def env84 : Env (ZMod 7) (ZMod 7) := ⟨com [3], H84, true, ZMod.val⟩

/-- The first bag with multiplicities 1. -/
def fs84 : List (Entry (ZMod 7)) := [⟨⟨⟨0, 1⟩, ⟨1, 1⟩⟩, ⟨1, 1⟩, ⟨1, (⟨1, [1, 2]⟩ : Mle (ZMod 7)).tbl, (⟨1, [1, 1]⟩ : Mle (ZMod 7)).tbl⟩, (⟨1, [1, 1]⟩ : Mle (ZMod 7)).tbl⟩]
/-- The second. -/
def gs84 : List (Entry (ZMod 7)) := [⟨⟨⟨2, 1⟩, ⟨1, 1⟩⟩, ⟨1, 1⟩, ⟨1, (⟨1, [2, 1]⟩ : Mle (ZMod 7)).tbl, (⟨1, [1, 1]⟩ : Mle (ZMod 7)).tbl⟩, (⟨1, [1, 1]⟩ : Mle (ZMod 7)).tbl⟩]

/-- The prover's run. -/
def prover84 : Res Unit × PTracker (ZMod 7) (ZMod 7) :=
  Multitool.prove env84 (fs84.map (·.bag)) (gs84.map (·.bag)) (fs84.map (·.mult)) (gs84.map (·.mult)) (committed env84.commit cols84)

/-- The proof. -/
def proof84 : Res (CompiledProof (ZMod 7) (ZMod 7) (BatchProof E7)) := (PTracker.compile env84.debug (kzgOf (E := E7) H84 (1 : ZMod 7) (1 : ZMod 7) [3]) H84 prover84.2).1

/-- The verifier's run. -/
def verdict84 : Res Unit := do
  let p ← proof84
  let vs ← runVOps true H84 VState.init (.setProof p :: List.replicate 3 .transferNext)
  let r := Multitool.verify (B := BatchProof E7) env84 (fs84.map fun e => sameBag e.bag) (gs84.map fun e => sameBag e.bag) (fs84.map (·.mult.id)) (gs84.map (·.mult.id)) vs.st
  let _ ← r.1
  (VSt.verifyClaims (kzgOf (E := E7) H84 (1 : ZMod 7) (1 : ZMod 7) [3]) H84 r.2).1

theorem prover84_ok : prover84.1 = .ok () := by decide +kernel
theorem prover84_fits : (∀ e ∈ prover84.2.mats, e.2.mle.numVars ≤ 1) ∧ (∃ e ∈ prover84.2.mats, e.2.mle.numVars = 1) ∧ 2 ≤ prover84.2.comms.length ∧
    ∀ e ∈ prover84.2.virts, ∀ q ∈ e.2, q.2.length ≤ 3 := by decide +kernel
theorem verdict84_ok : verdict84 = .ok () := by decide +kernel
theorem points84 : ((proof84).toOption.map fun p => (p.scMaxDegree, p.scProof.point, p.pcsProof.map fun b => b.sumCheckProof.point)) = some (1, [5], [[5]]) := by decide +kernel

theorem compilable84 : Compilable prover84.2 ([3] : List (ZMod 7)).length 3 1 := by
  obtain ⟨h1, h2, h3, h4⟩ := prover84_fits
  refine ⟨h1, h2, by decide, le_rfl, h3, fun id _ v hv q hq => ?_⟩
  have hm : (id, v) ∈ prover84.2.virts := by
    obtain ⟨l1, l2, e, _⟩ := List.lookup_eq_some_iff.1 hv
    rw [e]; simp
  exact h4 (id, v) hm q hq

theorem nats4 : NatsNonzero (ZMod 7) 4 := by
  intro i h1 h2
  have : i = 1 ∨ i = 2 ∨ i = 3 ∨ i = 4 := by omega
  rcases this with rfl | rfl | rfl | rfl <;> decide

theorem avoids84 {d : Nat} (hd : d ≤ 4) : Avoids ([5] : List (ZMod 7)) d := by
  intro c hc i hi
  obtain rfl : c = 5 := by simpa using hc
  have : i = 0 ∨ i = 1 ∨ i = 2 ∨ i = 3 ∨ i = 4 := by omega
  rcases this with rfl | rfl | rfl | rfl | rfl <;> decide

/-- The statement for this run. -/
theorem accepted84 : FromScratchOutside (E := E7) (fun _ => Side.values ((fs84 ++ gs84).map fun e => (e.tab, e.weights))) env84 (1 : ZMod 7) (1 : ZMod 7) [3] 1 3
    (fun V => Multitool.prove V (fs84.map (·.bag)) (gs84.map (·.bag)) (fs84.map (·.mult)) (gs84.map (·.mult)))
    (fun V => Multitool.verify V (fs84.map fun e => sameBag e.bag) (gs84.map fun e => sameBag e.bag) (fs84.map (·.mult.id)) (gs84.map (·.mult.id)))
    cols84 [((fs84 ++ gs84).map fun e => 2 ^ e.tab.nv).sum]
    (∀ z, Side.total (fs84.map fun e => (e.tab, e.weights)) z = Side.total (gs84.map fun e => (e.tab, e.weights)) z) := by
  refine fromScratch_of (P := fun _ _ => 0) (E := E7) (V := env84) rfl (by decide) nats4 ?_ (by decide) (fun hr hp => C52_multiset_complete (by decide) (kzg_canCommit (by decide)) hr (by decide) (by decide) ?_ ?_) ?_
  · decide
  · intro e he
    simp only [fs84, gs84, List.cons_append, List.nil_append, List.mem_cons, List.not_mem_nil, or_false] at he
    rcases he with rfl | rfl
    · exact ⟨⟨rfl, rfl, hp 0 _ rfl, hp 1 _ rfl⟩, rfl, hp 1 _ rfl⟩
    · exact ⟨⟨rfl, rfl, hp 2 _ rfl, hp 1 _ rfl⟩, rfl, hp 1 _ rfl⟩
  · decide
  · intro s hk e he
    simp only [fs84, gs84, List.cons_append, List.nil_append, List.mem_cons, List.not_mem_nil, or_false] at he
    rcases he with rfl | rfl
    · exact ⟨⟨hk 0 _ rfl, hk 1 _ rfl⟩, hk 1 _ rfl⟩
    · exact ⟨⟨hk 2 _ rfl, hk 1 _ rfl⟩, hk 1 _ rfl⟩

theorem valid84 : ∀ z, Side.total (fs84.map fun e => (e.tab, e.weights)) z = Side.total (gs84.map fun e => (e.tab, e.weights)) z := by decide +kernel
theorem challenge84 : (5 : ZMod 7) ∉ Side.values ((fs84 ++ gs84).map fun e => (e.tab, e.weights)) := by decide +kernel

/-- The run meets all hypotheses, so it is accepted (`verdict84_ok` evaluates the same run). -/
example : ∃ p vs s', proof84 = .ok p ∧ runVOps true H84 VState.init (.setProof p :: List.replicate 3 .transferNext) = .ok vs ∧
    Multitool.verify (B := BatchProof E7) env84 (fs84.map fun e => sameBag e.bag) (gs84.map fun e => sameBag e.bag) (fs84.map (·.mult.id)) (gs84.map (·.mult.id)) vs.st =
      (.ok (), s') ∧ (VSt.verifyClaims (kzgOf (E := E7) H84 (1 : ZMod 7) (1 : ZMod 7) [3]) H84 s').1 = .ok () := by
  obtain ⟨a, t', h1, h2, h3, h4⟩ := accepted84 H84
  obtain rfl : prover84.2 = t' := congrArg Prod.snd h1
  obtain ⟨p, bp, q1, q2, q3, vs, b, s', q4, q5, q6⟩ := h4 compilable84 valid84 fun hist _ => challenge84
  have hp : proof84 = .ok p := q1
  have hpt := points84
  rw [hp] at hpt
  simp only [Except.toOption, Option.map_some, Option.some.injEq, Prod.mk.injEq, q2, List.map_cons, List.map_nil, List.cons.injEq, and_true] at hpt
  exact ⟨p, vs, s', hp, q4, q5, q6 (by rw [hpt.1, hpt.2.1]; exact avoids84 (by decide)) (by rw [hpt.2.2]; exact avoids84 (by decide))⟩

/-- The sizes need not match: [1, 2] is sorted within the range [0, 1, 2, 3], whose column has four rows.  The data is valid, and the same statement holds. -/
example : FromScratch (E := E7) ⟨com [3, 4], H84, true, ZMod.val⟩ (1 : ZMod 7) (1 : ZMod 7) [3, 4] 2 3 (fun V => StrictSort.prove V ⟨⟨0, 1⟩, ⟨1, 1⟩⟩ ⟨⟨2, 2⟩, ⟨2, 2⟩⟩)
    (fun V => StrictSort.verify V ⟨0, 1, 1⟩ ⟨2, 2, 2⟩) [⟨1, [1, 2]⟩, ⟨1, [1, 1]⟩, ⟨2, [0, 1, 2, 3]⟩] (hSort 1 2)
    (SortedIn 1 2 (⟨1, [1, 2]⟩ : Mle (ZMod 7)).tbl (⟨1, [1, 1]⟩ : Mle (ZMod 7)).tbl (⟨2, [0, 1, 2, 3]⟩ : Mle (ZMod 7)).tbl) ∧
    SortedIn 1 2 (⟨1, [1, 2]⟩ : Mle (ZMod 7)).tbl (⟨1, [1, 1]⟩ : Mle (ZMod 7)).tbl (⟨2, [0, 1, 2, 3]⟩ : Mle (ZMod 7)).tbl := by
  refine ⟨C84_from_scratch (P := fun _ _ => 0) (Inputs := fun s => KnownBag s ⟨0, 1, 1⟩ ∧ Known s 2) rfl (by decide) nats4 (by decide) (by decide) (fun hr hp =>
    C62_strict_sort_complete_partial (f := ⟨⟨0, 1⟩, ⟨1, 1⟩⟩) (range := ⟨⟨2, 2⟩, ⟨2, 2⟩⟩) (Tf := ⟨1, (⟨1, [1, 2]⟩ : Mle (ZMod 7)).tbl, (⟨1, [1, 1]⟩ : Mle (ZMod 7)).tbl⟩) (by decide)
      (kzg_canCommit (by decide)) hr ⟨rfl, rfl, hp 0 _ rfl, hp 1 _ rfl⟩ (hp 2 _ rfl) rfl (by decide) (by decide)) fun s hk => ⟨⟨hk 0 _ rfl, hk 1 _ rfl⟩, hk 2 _ rfl⟩, ?_⟩
  intro i hi
  obtain rfl : i = 0 := by simp at hi; omega
  exact ⟨⟨1, by decide, by decide +kernel⟩, by decide +kernel⟩

end PfEx

end Zksql
