import Verif.Lemmas.VerifierClaims
import Verif.Props.Joint
/-!
# Properties C43 and C44: equalising and folding the recorded claims
-/
set_option linter.unusedSectionVars false
namespace Zksql
open Spec PTracker
variable {F C B : Type} [Field F] {commit : Mle F → Res C} {H : Oracle F C} {st : PState F C}

/-! ### C43 -/

/-- C43 in full: equalising succeeds on every reachable tracker with at least one table, repeats every smaller table, multiplies each sum
by the power of two, keeps zero claims true, and leaves the evaluation of every handle at the leading coordinates unchanged. -/
def C43_statement : Prop :=
  ∀ (F C : Type) [Field F] (commit : Mle F → Res C) (H : Oracle F C) (st : PState F C), Reachable commit H st → st.tracker.mats ≠ [] →
    ∃ N t, PTracker.equalize st.tracker = (.ok N, t) ∧ Equalised st N t ∧ ∀ h ∈ st.handles, SameLeading st N t h

/-- Repeating a table along trailing variables multiplies its sum by a power of two. -/
theorem sum_mod_pow (N nv : Nat) (h : nv ≤ N) (f : Nat → F) :
    ((List.range (2 ^ N)).map fun b => f (b % 2 ^ nv)).sum = 2 ^ (N - nv) * ((List.range (2 ^ nv)).map f).sum := by
  obtain ⟨k, rfl⟩ := Nat.exists_eq_add_of_le h
  rw [Nat.add_sub_cancel_left]
  induction k with
  | zero =>
    simp only [Nat.add_zero, pow_zero, one_mul]
    congr 1
    apply List.map_congr_left
    intro b hb
    rw [Nat.mod_eq_of_lt (List.mem_range.1 hb)]
  | succ k ih =>
    have e : 2 ^ (nv + (k + 1)) = 2 ^ (nv + k) + 2 ^ (nv + k) := by rw [← Nat.add_assoc, pow_succ]; omega
    rw [e, List.range_add, List.map_append, List.sum_append, ih (by omega), List.map_map]
    have : ((fun b => f (b % 2 ^ nv)) ∘ fun x => 2 ^ (nv + k) + x) = fun b => f (b % 2 ^ nv) := by
      funext b
      simp only [Function.comp]
      rw [pow_add, Nat.mul_add_mod]
    rw [this, ih (by omega), pow_succ]
    ring

/-- Every table of a non-negative size has its entry list. -/
theorem evals_getD (hI : StInv commit st) {h : TPoly} (hh : h ∈ st.handles) {l : List F} (hl : evalsOf st h = .ok l) :
    l.length = 2 ^ h.numVars ∧ ∀ b < 2 ^ h.numVars, l.getD b 0 = st.tracker.gval (fun p => p.tbl b) h.id := by
  rw [evalsOf_eq hI (hI.known h hh)] at hl
  injection hl with hl; subst hl
  refine ⟨by simp, fun b hb => ?_⟩
  simp [List.getD_eq_getElem?_getD, hb]

/-- C43, partial: everything except that the evaluation at the leading coordinates is unchanged is proved for all handles; that part is proved
for the handles without a sum claim.  Missing: it is false for a sum-claimed product (`C43_violated`). -/
theorem C43_equalise_partial (hr : Reachable commit H st) (hm : st.tracker.mats ≠ []) :
    ∃ N t, PTracker.equalize st.tracker = (.ok N, t) ∧ Equalised st N t ∧
      (∀ e ∈ st.tracker.mats, e.2.mle.numVars ≤ N) ∧ (∃ e ∈ st.tracker.mats, e.2.mle.numVars = N) ∧
      ∀ h ∈ st.handles, h.id ∉ st.tracker.sumClaims.map (·.1) → SameLeading st N t h := by
  have hI := hr.inv
  have hcl := hr.claimed
  have hc : ∀ c ∈ st.tracker.sumClaims, ∃ nv, st.tracker.HasNv c.1 nv := by
    intro c h
    obtain ⟨a, ha, e⟩ := hcl.1 c h
    exact ⟨a.numVars, e ▸ hI.known a ha⟩
  obtain ⟨N, t1, t', hle, hex, hE, hI1, heq, hI', hp, _, _, _, hz, hs, hkeep, _⟩ := equalize_run hI.inv hm hc
  have key : ∀ h ∈ st.handles, h.numVars ≤ N ∧ t1.HasNv h.id N ∧ t'.HasNv h.id N ∧
      ∀ b < 2 ^ N, t'.gval (fun p => p.tbl b) h.id = st.tracker.gval (fun p => p.tbl (b % 2 ^ h.numVars)) h.id := by
    intro h hh
    have hk := hI.known h hh
    obtain ⟨h1, h2⟩ := hE.hasNv hk
    exact ⟨h1, h2, hp.nv _ _ h2, fun b hb => by rw [hp.cube _ _ b h2 hb, hE.gval_tbl hk b hb]⟩
  have hev : ∀ h ∈ st.handles, evalsOf ⟨t', st.handles⟩ ⟨h.id, N⟩ =
      .ok ((List.range (2 ^ N)).map fun b => st.tracker.gval (fun p => p.tbl (b % 2 ^ h.numVars)) h.id) := by
    intro h hh
    obtain ⟨_, _, h3, h4⟩ := key h hh
    unfold evalsOf TPoly.evaluations
    rw [evaluations_run hI' h3]
    show Except.ok _ = Except.ok _
    congr 1
    apply List.map_congr_left
    intro b hb
    exact h4 b (List.mem_range.1 hb)
  have htab : ∀ h ∈ st.handles, ∀ l, evalsOf st h = .ok l →
      ((List.range (2 ^ N)).map fun b => st.tracker.gval (fun p => p.tbl (b % 2 ^ h.numVars)) h.id) =
      (List.range (2 ^ N)).map fun b => l.getD (b % 2 ^ h.numVars) 0 := by
    intro h hh l hl
    apply List.map_congr_left
    intro b _
    rw [(evals_getD hI hh hl).2 _ (Nat.mod_lt _ (by positivity))]
  refine ⟨N, t', heq, ⟨?_, ?_, ?_, hz, ?_⟩, hle, hex, ?_⟩
  · intro h hh l hl
    exact ⟨(key h hh).1, by rw [hev h hh, htab h hh l hl]⟩
  · rw [hs]; simp [Function.comp_def]
  · intro k id v hk h hh hid l hl
    rw [hs, List.getElem?_map, hk]
    simp only [Option.map_some]
    congr 2
    subst hid
    obtain ⟨h1, h2, _, _⟩ := key h hh
    unfold PTracker.tsum
    have : ((List.range (2 ^ N)).map fun b => t1.gval (fun p => p.tbl b) h.id) =
        (List.range (2 ^ N)).map fun b => (fun c => st.tracker.gval (fun p => p.tbl c) h.id) (b % 2 ^ h.numVars) := by
      apply List.map_congr_left
      intro b hb
      exact hE.gval_tbl (hI.known h hh) b (List.mem_range.1 hb)
    rw [this, sum_mod_pow N h.numVars h1 fun c => st.tracker.gval (fun p => p.tbl c) h.id]
    rw [evalsOf_eq hI (hI.known h hh)] at hl
    injection hl with hl; subst hl
    rfl
  · intro h hh _
    constructor
    · intro hz0 l hl y hy
      rw [hev h hh] at hl
      injection hl with hl; subst hl
      obtain ⟨b, _, rfl⟩ := List.mem_map.1 hy
      exact hz0 _ (evalsOf_eq hI (hI.known h hh)) _ (List.mem_map.2 ⟨b % 2 ^ h.numVars, List.mem_range.2 (Nat.mod_lt _ (by positivity)), rfl⟩)
    · intro hz1 l hl y hy
      rw [evalsOf_eq hI (hI.known h hh)] at hl
      injection hl with hl; subst hl
      obtain ⟨b, hb, rfl⟩ := List.mem_map.1 hy
      have hb := List.mem_range.1 hb
      refine hz1 _ (hev h hh) _ (List.mem_map.2 ⟨b, List.mem_range.2 (lt_of_lt_of_le hb (Nat.pow_le_pow_right (by norm_num) (key h hh).1)), ?_⟩)
      rw [Nat.mod_eq_of_lt hb]
  · intro h hh hnot x hx
    obtain ⟨h1, h2, h3, _⟩ := key h hh
    unfold TPoly.evaluate
    rw [evaluate_spec hI' h3 x hx, evaluate_spec hI.inv (hI.known h hh) _ (by rw [List.length_take]; omega), hkeep _ _ h2 hnot,
      hE.gval_mle (hI.known h hh) x hx]

namespace CEx

/-- A column of one variable, one of two, the product of the first with itself, both kinds of claims. -/
def ops : List (POp (ZMod 7) (List (ZMod 7))) :=
  [.commit ⟨1, [1, 2]⟩ rfl, .track ⟨2, [0, 0, 3, 5]⟩ rfl, .mul 0 0, .sumClaim 2 5, .sub 1 1, .zeroClaim 3]

def state : PState (ZMod 7) (List (ZMod 7)) :=
  match runOps PEx.com PEx.orc PState.init ops with
  | .ok s => s
  | .error _ => PState.init

theorem run : runOps PEx.com PEx.orc PState.init ops = .ok state := by decide +kernel
theorem reach : Reachable PEx.com PEx.orc state := ⟨ops, run⟩
theorem mats : state.tracker.mats ≠ [] := by decide +kernel

end CEx

/-- The example has tables of different sizes, a sum claim on a product and a zero claim; equalising doubles the claimed sum `1 + 4`. -/
example : ∃ N t, PTracker.equalize CEx.state.tracker = (.ok N, t) ∧ Equalised CEx.state N t ∧ N = 2 ∧ t.sumClaims = [(2, 3)] := by
  obtain ⟨N, t, h1, h2, _⟩ := C43_equalise_partial CEx.reach CEx.mats
  have e : (PTracker.equalize CEx.state.tracker).1 = .ok 2 ∧ (PTracker.equalize CEx.state.tracker).2.sumClaims = [(2, 3)] := by decide +kernel
  rw [h1] at e
  obtain ⟨e1, e2⟩ := e
  injection e1 with e1
  exact ⟨N, t, h1, h2, e1, e2⟩

/-- C43 fails: computing the sum of a claimed product replaces the product by its multilinear extension, which differs off the cube. -/
theorem C43_violated : ¬ C43_statement := by
  intro h
  obtain ⟨N, t, h1, h2, h3⟩ := h (ZMod 7) (List (ZMod 7)) PEx.com PEx.orc CEx.state CEx.reach CEx.mats
  have e : (PTracker.equalize CEx.state.tracker).1 = .ok 2 ∧
      TPoly.evaluate (PTracker.equalize CEx.state.tracker).2 ⟨2, 2⟩ [2, 0] = .ok (some 0) ∧
      TPoly.evaluate CEx.state.tracker ⟨2, 1⟩ [2] = .ok (some 2) ∧ (⟨2, 1⟩ : TPoly) ∈ CEx.state.handles := by decide +kernel
  rw [h1] at e
  obtain ⟨e1, e2, e3, e4⟩ := e
  injection e1 with e1; subst e1
  have := h3 ⟨2, 1⟩ e4 [2, 0] rfl
  rw [e2] at this
  have e3' : TPoly.evaluate CEx.state.tracker ⟨2, 1⟩ (List.take (TPoly.mk 2 1).numVars [2, 0]) = .ok (some 2) := e3
  rw [e3'] at this
  injection this with this; injection this with this
  exact absurd this (by decide)

/-! ### C44 -/

/-- C44 (complete): if all claims are true, the folded claim is true for every choice of challenges. -/
theorem C44_complete (N : Nat) (zs : List (Nat → F)) (vs : List ((Nat → F) × F)) (h : AllClaims N zs vs) (cs r ds : List F) (hr : r.length = N) :
    FoldedClaim N zs vs cs r ds := folded_complete N zs vs h cs r ds hr

/-- C44 (sound): if some claim is false, the challenge vectors `(c, r, d)` for which the folded claim is true are at most a fraction
`(N + 2) / |F|` of all challenge vectors. -/
theorem C44_sound [Fintype F] [DecidableEq F] (N : Nat) (zs : List (Nat → F)) (vs : List ((Nat → F) × F)) (h : ¬ AllClaims N zs vs)
    (bad : (Fin zs.length → F) × (Fin N → F) × (Fin (vs.length + 1) → F) → Prop) [DecidablePred bad]
    (hbad : ∀ c r d, bad (c, r, d) → FoldedClaim N zs vs (List.ofFn c) (List.ofFn r) (List.ofFn d)) :
    (Finset.univ.filter bad).card * Fintype.card F ≤ (N + 2) * Fintype.card F ^ (zs.length + N + (vs.length + 1)) :=
  folded_sound N zs vs h bad hbad

/-- A false claim: the table `1, 1` is not zero. -/
example : ¬ AllClaims 1 [fun _ => (1 : ZMod 7)] [] := fun h => absurd (h.1 _ List.mem_cons_self 0 (by norm_num)) (by decide)

/-- True claims: `1 + 2 = 3`, and a zero table. -/
example : AllClaims 1 [fun _ => (0 : ZMod 7)] [(fun b => if b = 0 then 1 else 2, 3)] := by
  refine ⟨fun z hz b _ => ?_, fun v hv => ?_⟩
  · obtain rfl : z = _ := by simpa using hz
    rfl
  · obtain rfl : v = _ := by simpa using hv
    decide +kernel

/-- C44 (prover): on a reachable tracker that has a table with a variable and a non-empty transcript, folding succeeds; with the challenges `cs`,
`r`, `ds` drawn in this order from the transcript, the folded polynomial has on the cube the folded value of the claimed tables after equalising,
and the folded sum is the folded sum of the recomputed sums. -/
theorem C44_prover (hr : Reachable commit H st) (hm : ∃ e ∈ st.tracker.mats, e.2.mle.numVars ≠ 0) (hne : st.tracker.transcript.isEmpty = false) :
    ∃ N te cs tr1 r tr2 ds tr3 agg t', PTracker.equalize st.tracker = (.ok N, te) ∧
      st.tracker.transcript.challengeLoop H "zerocheck challenge" st.tracker.zeroClaims.length = .ok (cs, tr1) ∧
      tr1.challenges H "0check r" N = .ok (r, tr2) ∧ r.length = N ∧
      tr2.challengeLoop H "sumcheck challenge" (st.tracker.sumClaims.length + 1) = .ok (ds, tr3) ∧
      PTracker.aggregate H st.tracker = (.ok (agg, foldedSum ds (te.sumClaims.map (·.2))), t') ∧ t'.transcript = tr3 ∧
      ∃ tab : Nat → Nat → F,
        (∀ id, id ∈ st.tracker.zeroClaims ∨ id ∈ st.tracker.sumClaims.map (·.1) →
          (TPoly.evaluations ⟨id, N⟩ te).1 = .ok ((List.range (2 ^ N)).map (tab id))) ∧
        (TPoly.evaluations ⟨agg, N⟩ t').1 = .ok ((List.range (2 ^ N)).map fun b =>
          foldedValue cs ds (st.tracker.zeroClaims.map fun id => tab id b) (te.sumClaims.map fun c => tab c.1 b) (eqPoly (boolPt N b) r)) ∧
        ((∀ id ∈ st.tracker.zeroClaims, ∀ b < 2 ^ N, tab id b = 0) →
          ∀ l, (TPoly.evaluations ⟨agg, N⟩ t').1 = .ok l → l.sum = foldedSum ds (te.sumClaims.map (·.2))) := by
  have hI := hr.inv
  have hcl := hr.claimed
  have hs : ∀ c ∈ st.tracker.sumClaims, ∃ nv, st.tracker.HasNv c.1 nv := by
    intro c h
    obtain ⟨a, ha, e⟩ := hcl.1 c h
    exact ⟨a.numVars, e ▸ hI.known a ha⟩
  have hz : ∀ c ∈ st.tracker.zeroClaims, ∃ nv, st.tracker.HasNv c nv := by
    intro c h
    obtain ⟨a, ha, e⟩ := hcl.2 c h
    exact ⟨a.numVars, e ▸ hI.known a ha⟩
  obtain ⟨N, te, cs, tr1, r, tr2, ds, tr3, agg, t', hN, heq, c1, c2, c3, c4, c5, c6, c7, hagg, hI', hk, hcnt, htr, _, _, _, hnv, hse, hze, hval⟩ :=
    aggregate_run H hI.inv hm hne hs hz
  obtain ⟨e0, he0, hnz⟩ := hm
  obtain ⟨N', t1, te', _, _, hE, hI1, heq', hIe, hpe, _, _, _, _, hsc, _⟩ := equalize_run hI.inv (by rintro h; rw [h] at he0; simp at he0) hs
  rw [heq] at heq'
  obtain ⟨eN, rfl⟩ := Prod.mk.inj heq'
  injection eN with eN; subst eN
  have htb : ∀ b < 2 ^ N, t'.gval (fun p => p.tbl b) agg =
      foldedValue cs ds (st.tracker.zeroClaims.map fun id => te.gval (fun p => p.tbl b) id) (te.sumClaims.map fun c => te.gval (fun p => p.tbl b) c.1)
        (eqPoly (boolPt N b) r) := by
    intro b hb
    rw [hval, constMle_tbl N 0 b hb, eqPoly_boolPt N r c4 b hb, zero_add, zero_add, eqMle_tbl r b (c4.symm ▸ hb)]
    rfl
  have hrun := evaluations_run hI' hnv
  refine ⟨N, te, cs, tr1, r, tr2, ds, tr3, agg, t', heq, c1, c3, c4, c5, hagg, htr, fun id b => te.gval (fun p => p.tbl b) id, ?_, ?_, ?_⟩
  · intro id hid
    have hn : te.HasNv id N := by
      rcases hid with hid | hid
      · exact hze id hid
      · obtain ⟨c, hc, rfl⟩ := List.mem_map.1 hid
        obtain ⟨nv, hnv⟩ := hs c hc
        exact hpe.nv _ _ (hE.hasNv hnv).2
    unfold TPoly.evaluations
    rw [evaluations_run hIe hn]
  · unfold TPoly.evaluations
    rw [hrun]
    show Except.ok _ = Except.ok _
    congr 1
    apply List.map_congr_left
    intro b hb
    exact htb b (List.mem_range.1 hb)
  · intro hz0 l hl
    unfold TPoly.evaluations at hl
    rw [hrun] at hl
    injection hl with hl; subst hl
    have hall : AllClaims N (st.tracker.zeroClaims.map fun id b => te.gval (fun p => p.tbl b) id)
        (te.sumClaims.map fun c => ((fun b => te.gval (fun p => p.tbl b) c.1), c.2)) := by
      constructor
      · intro z hz b hb
        obtain ⟨id, hid, rfl⟩ := List.mem_map.1 hz
        exact hz0 id hid b hb
      · intro v hv
        obtain ⟨c, hc, rfl⟩ := List.mem_map.1 hv
        have hc0 := hc
        rw [hsc] at hc
        obtain ⟨c', hc', rfl⟩ := List.mem_map.1 hc
        obtain ⟨nv, hnv⟩ := hs c' hc'
        have : te.tsum N c'.1 = t1.tsum N c'.1 := Pres.tsum hpe (hE.hasNv hnv).2
        show cubeSum N _ = t1.tsum N c'.1
        rw [← this]
        unfold cubeSum PTracker.tsum
        rw [list_sum_range']
    have hfc := folded_complete N _ _ hall cs r ds c4
    unfold FoldedClaim at hfc
    simp only [List.map_map, Function.comp_def] at hfc
    rw [← hfc]
    unfold cubeSum
    have : ((List.range (2 ^ N)).map fun b => t'.gval (fun p => p.tbl b) agg).sum = ∑ b ∈ Finset.range (2 ^ N), t'.gval (fun p => p.tbl b) agg := by
      rw [list_sum_range']
    rw [this]
    exact Finset.sum_congr rfl fun b hb => htb b (Finset.mem_range.1 hb)

/-- The example is a prover state with a transcript to draw from. -/
example : (∃ e ∈ CEx.state.tracker.mats, e.2.mle.numVars ≠ 0) ∧ CEx.state.tracker.transcript.isEmpty = false ∧
    CEx.state.tracker.zeroClaims = [3] ∧ CEx.state.tracker.sumClaims = [(2, 5)] := by decide +kernel

/-- C44 (verifier): on every reachable verifier with a non-empty transcript folding succeeds; with the challenges `cs`, `r`, `ds` drawn in the same order
and under the same labels as the prover's, the folded handle evaluates at every point of the announced size to the folded value of the values of the
claimed handles there, however queries to commitments are answered, and the folded sum is that of the recorded sums. -/
theorem C44_verifier [DecidableEq F] {debug : Bool} {vs : VState F C B} (hr : VReachable debug H vs) (hne : vs.st.own.transcript.isEmpty = false) :
    ∃ cs tr1 r tr2 ds tr3 agg s',
      vs.st.own.transcript.challengeLoop H "zerocheck challenge" vs.st.own.zeroClaims.length = .ok (cs, tr1) ∧
      tr1.challenges H "0check r" vs.st.own.proof.scNumVars = .ok (r, tr2) ∧ r.length = vs.st.own.proof.scNumVars ∧
      tr2.challengeLoop H "sumcheck challenge" (vs.st.own.sumClaims.length + 1) = .ok (ds, tr3) ∧
      VSt.aggregate H vs.st = (.ok (agg, foldedSum ds (vs.st.own.sumClaims.map (·.2))), s') ∧ s'.own.transcript = tr3 ∧
      ∀ ans x (v : Nat → F), x.length = vs.st.own.proof.scNumVars →
        (∀ id, id ∈ vs.st.own.zeroClaims ∨ id ∈ vs.st.own.sumClaims.map (·.1) → vEval vs ans id x = .ok (v id)) →
        vEval ⟨s', vs.handles⟩ ans agg x =
          .ok (foldedValue cs ds (vs.st.own.zeroClaims.map v) (vs.st.own.sumClaims.map fun c => v c.1) (eqPoly x r)) := by
  have hI := hr.inv
  obtain ⟨cs, tr1, r, tr2, ds, tr3, agg, s', c1, c2, c3, c4, c5, c6, c7, hagg, _, _, _, htr, _, _, _, _, hval⟩ :=
    VSt.aggregate_run H (N := vs.st.own.proof.scNumVars) rfl hI.wf hne hI.claims.2 hI.claims.1
  refine ⟨cs, tr1, r, tr2, ds, tr3, agg, s', c1, c3, c4, c5, hagg, htr, ?_⟩
  intro ans x v hx hv
  exact hval ans x v hx (fun c h => hv c (.inl h)) fun c h => hv c.1 (.inr (List.mem_map.2 ⟨c, h, rfl⟩))

/-- A verifier that followed the example of C41 has a non-empty transcript and claims. -/
example : ∃ vs : VState (ZMod 7) (List (ZMod 7)) Unit, VReachable true PEx.orc vs ∧ vs.st.own.transcript.isEmpty = false := by
  refine ⟨_, ⟨[.append "x" (.elem 1), .virt (fun _ => .ok 0), .zeroClaim 0], rfl⟩, by decide +kernel⟩

end Zksql
