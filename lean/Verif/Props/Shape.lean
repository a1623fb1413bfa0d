import Verif.Lemmas.ShapeCompile
/-!
C107: what a compiled proof contains, and how large it is, counted from the calls of the session.
-/
set_option linter.unusedSectionVars false
namespace Zksql
open Spec
variable {F C B : Type} [Field F] [DecidableEq F]
variable {commit : Mle F → Res C} {H : Oracle F C} {ops : List (POp F C)} {ps : PState F C} {debug : Bool} {pcs : Pcs F C B} {p : CompiledProof F C B}

/-- The sumcheck of a proof has one round for each variable of the largest handle, and each message has one value more than the degree, which is that of the claims in a
release build and 1 in a debug build. -/
theorem C107_sumcheck (hr : runOps commit H PState.init ops = .ok ps) (hc : (PTracker.compile debug pcs H ps.tracker).1 = .ok p) :
    p.scNumVars = largest commit ops ∧ p.scMaxDegree = proofDegree debug commit ops ∧ p.scProof.point.length = largest commit ops ∧
    p.scProof.proofs.map List.length = List.replicate (largest commit ops) (proofDegree debug commit ops + 1) := by
  obtain ⟨h, hd, -⟩ := compiled_shape hr (Prod.ext hc rfl)
  refine ⟨h.numVars, hd, h.point, ?_⟩
  rw [List.eq_replicate_iff]
  refine ⟨by rw [List.length_map, h.rounds], fun n hn => ?_⟩
  obtain ⟨m, hm, rfl⟩ := List.mem_map.1 hn
  rw [h.msgs m hm, hd]

/-- A proof has one commitment for each commitment of the session that was not refused, the latest first, one answer for each of them, all at the point of the
sumcheck, and one opening. -/
theorem C107_commitments (hr : runOps commit H PState.init ops = .ok ps) (hc : (PTracker.compile debug pcs H ps.tracker).1 = .ok p) :
    p.comms.map (·.2) = (ops.filterMap (POp.committed commit)).reverse ∧
    p.queryMap.map (·.1.2) = List.replicate (commitCount commit ops) p.scProof.point ∧ p.pcsProof.length = 1 := by
  obtain ⟨h, -, -, -⟩ := compiled_shape hr (Prod.ext hc rfl)
  have hT : Traced commit ops ps := by simpa using traced_init.runAll ops hr
  refine ⟨by rw [h.comms, hT.comms], ?_, h.openings⟩
  rw [h.queries, List.map_map, List.eq_replicate_iff]
  refine ⟨?_, fun x hx => ?_⟩
  · rw [List.length_map, PTracker.length_sortedIds]
    have := congrArg List.length hT.comms
    simpa [commitCount] using this
  · obtain ⟨_, _, rfl⟩ := List.mem_map.1 hx
    rfl

/-- A proof has one claimed sum for each handle of which a sum was claimed, and one for all the claims that handles are zero. -/
theorem C107_claims (hr : runOps commit H PState.init ops = .ok ps) (hc : (PTracker.compile debug pcs H ps.tracker).1 = .ok p) :
    p.sumcheckClaims.length = sumCount ops + 1 := (compiled_shape hr (Prod.ext hc rfl)).2.2.1

/-- The number of field elements in a proof, without its batch opening. -/
theorem C107_size (hr : runOps commit H PState.init ops = .ok ps) (hc : (PTracker.compile debug pcs H ps.tracker).1 = .ok p) :
    fieldSize p = (sumCount ops + 1) + largest commit ops + largest commit ops * (proofDegree debug commit ops + 1) + commitCount commit ops * (largest commit ops + 1) := by
  obtain ⟨-, -, h1, h2⟩ := C107_sumcheck hr hc
  obtain ⟨-, h3, -⟩ := C107_commitments hr hc
  have h4 : (p.queryMap.map fun e => e.1.2.length + 1) = List.replicate (commitCount commit ops) (largest commit ops + 1) := by
    have := congrArg (List.map fun x : List F => x.length + 1) h3
    rw [List.map_map, List.map_replicate, h1] at this
    exact this
  unfold fieldSize
  rw [C107_claims hr hc, h1, h2, h4, List.sum_replicate, List.sum_replicate, smul_eq_mul, smul_eq_mul]

/-- The batch opening of the KZG scheme: one round and one group element for each variable of the largest handle, messages of three values, one value for each
commitment. -/
theorem C107_opening {E : Curve F} {H : Oracle F E.G1} {commit : Mle F → Res E.G1} {ops : List (POp F E.G1)} {ps : PState F E.G1} {p : CompiledProof F E.G1 (BatchProof E)}
    (g : E.G1) (h : E.G2) (T : List F) (hr : runOps commit H PState.init ops = .ok ps) (hc : (PTracker.compile debug (kzgOf H g h T) H ps.tracker).1 = .ok p) :
    ∃ b, p.pcsProof = [b] ∧ b.sumCheckProof.point.length = largest commit ops ∧ b.sumCheckProof.proofs.map List.length = List.replicate (largest commit ops) 3 ∧
      b.evals.length = commitCount commit ops ∧ b.gPrimeProof.length = largest commit ops ∧
      batchFieldSize b = 4 * largest commit ops + commitCount commit ops := by
  obtain ⟨-, -, -, polys, evals, tr, b, tr', h1, h2, h3, h4, h5⟩ := compiled_shape hr (Prod.ext hc rfl)
  have hT : Traced commit ops ps := by simpa using traced_init.runAll ops hr
  have hlen : ps.tracker.comms.length = commitCount commit ops := by
    have := congrArg List.length hT.comms
    simpa [commitCount] using this
  have hne : ((PTracker.sortedIds ps.tracker.comms).map fun _ => p.scProof.point) ≠ [] := by
    intro h0
    have h0 := congrArg List.length h0
    rw [List.length_map, PTracker.length_sortedIds, hlen, ← h4] at h0
    obtain rfl := List.length_eq_zero_iff.1 h0
    cases h1
  obtain ⟨a1, a2, a3, a4, a5⟩ := multiOpen_shape hne h3 h1
  have e : b.sumCheckProof.proofs.map List.length = List.replicate (largest commit ops) 3 := by
    rw [List.eq_replicate_iff]
    refine ⟨by rw [List.length_map, a2], fun n hn => ?_⟩
    obtain ⟨m, hm, rfl⟩ := List.mem_map.1 hn
    exact a3 m hm
  refine ⟨b, h2, a1, e, by rw [a4, h5], a5, ?_⟩
  unfold batchFieldSize
  rw [a1, e, a4, h5, List.sum_replicate, smul_eq_mul]
  omega

/-- The size of a proof says nothing of the data: two sessions of the same calls, with any values in tables of the same sizes, any scalars, claimed sums, labels and
messages, and any commitment function and oracle, give proofs of the same size. -/
theorem C107_data_free {commit' : Mle F → Res C} {H' : Oracle F C} {ops' : List (POp F C)} {ps' : PState F C} {pcs' : Pcs F C B} {p' : CompiledProof F C B}
    (hs : List.Forall₂ (SameKind commit commit') ops ops')
    (hr : runOps commit H PState.init ops = .ok ps) (hc : (PTracker.compile debug pcs H ps.tracker).1 = .ok p)
    (hr' : runOps commit' H' PState.init ops' = .ok ps') (hc' : (PTracker.compile debug pcs' H' ps'.tracker).1 = .ok p') :
    p.scNumVars = p'.scNumVars ∧ p.scMaxDegree = p'.scMaxDegree ∧ p.scProof.proofs.map List.length = p'.scProof.proofs.map List.length ∧
    p.comms.length = p'.comms.length ∧ p.sumcheckClaims.length = p'.sumcheckClaims.length ∧ fieldSize p = fieldSize p' := by
  have hk := sameKind_counts hs
  obtain ⟨e1, e2, e3, e4⟩ := hk debug
  obtain ⟨a1, a2, -, a4⟩ := C107_sumcheck hr hc
  obtain ⟨b1, b2, -, b4⟩ := C107_sumcheck hr' hc'
  have c1 := congrArg List.length (C107_commitments hr hc).1
  have c2 := congrArg List.length (C107_commitments hr' hc').1
  simp only [List.length_map, List.length_reverse] at c1 c2
  refine ⟨by rw [a1, b1, e1], by rw [a2, b2, e2], by rw [a4, b4, e1, e2], ?_, by rw [C107_claims hr hc, C107_claims hr' hc', e4], ?_⟩
  · rw [c1, c2]; exact e3
  · rw [C107_size hr hc, C107_size hr' hc', e1, e2, e3, e4]

/-! ### Examples -/

namespace ShpEx
open PfEx

/-- A column of one variable, a product of degree 3 that vanishes, a refused commitment, a column of two variables, and a sum claimed twice. -/
def calls : List (POp (ZMod 7) (ZMod 7)) :=
  [.commit ⟨1, [0, 1]⟩ rfl, .mul 0 0, .mul 1 0, .sub 2 0, .commit ⟨3, [1, 2, 3, 4, 5, 6, 0, 1]⟩ rfl, .zeroClaim 3, .incBack 0 1, .commit ⟨2, [3, 5, 0, 1]⟩ rfl, .sumClaim 5 2,
    .sumClaim 5 2, .sumClaim 4 2]

/-- The same calls on other data. -/
def calls' : List (POp (ZMod 7) (ZMod 7)) :=
  [.commit ⟨1, [1, 0]⟩ rfl, .mul 0 0, .mul 1 0, .sub 2 0, .commit ⟨3, [0, 0, 0, 0, 0, 0, 0, 0]⟩ rfl, .zeroClaim 3, .incBack 0 1, .commit ⟨2, [6, 6, 6, 6]⟩ rfl, .sumClaim 5 3,
    .sumClaim 5 3, .sumClaim 4 2]

/-- What is counted from the calls. -/
theorem counts : (sizes (com [3, 2]) calls, degrees (com [3, 2]) calls, largest (com [3, 2]) calls, zeroDegree (com [3, 2]) calls, sumCount calls, commitCount (com [3, 2]) calls) =
    ([1, 1, 1, 1, 2, 2], [1, 2, 3, 3, 1, 1], 2, 3, 2, 2) := by decide +kernel

theorem same : List.Forall₂ (SameKind (com [3, 2]) (com [3, 2])) calls calls' := by
  unfold calls calls'
  repeat (first | exact List.Forall₂.nil | refine List.Forall₂.cons (by simp only [SameKind] <;> decide +kernel) ?_)

/-- The sessions run, and their proofs have what the theorems count. -/
def lengths (d : Bool) (l : List (POp (ZMod 7) (ZMod 7))) : Option (List Nat) := do
  let st ← (runOps (com [3, 2]) exBatchH PState.init l).toOption
  let q ← (PTracker.compile d (PfEx.pcs [3, 2]) exBatchH st.tracker).1.toOption
  let b ← q.pcsProof[0]?
  pure [q.scNumVars, q.scMaxDegree, fieldSize q, q.comms.length, batchFieldSize b, b.gPrimeProof.length]

theorem run : (lengths true calls, lengths false calls, lengths true calls', lengths false calls') =
    (some [2, 1, 15, 2, 10, 2], some [2, 4, 21, 2, 10, 2], some [2, 1, 15, 2, 10, 2], some [2, 4, 21, 2, 10, 2]) := by decide +kernel

end ShpEx

end Zksql
