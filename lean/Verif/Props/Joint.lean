import Verif.Lemmas.Joint2
import Verif.Lemmas.Compile
import Verif.Props.ProverTracker
/-!
# Properties C33 (verifier), C41, C42: the verifier's tracker, and both trackers running the same history

`Spec.VOp` (Verif/Spec/Joint.lean) is one call on the verifier's side, `mirrorOps pub ops` is what a verifier does when the prover does `ops`
(public tables are replaced by closed forms `pub`, commitments and claimed sums are read from the proof), and `InStep` says that counters,
transcripts, returned identifiers, commitments and claimed identifiers agree.
-/
set_option linter.unusedSectionVars false
namespace Zksql
open Spec PTracker
variable {F C B : Type} [Field F] [DecidableEq F] {commit : Mle F → Res C} {H : Oracle F C} {ps : PState F C} {vs vs' : VState F C B}
  {debug : Bool} {pub : Mle F → List F → Res F}

/-! ### A concrete history -/

namespace JEx

/-- The calls of the prover: a public column, a committed one, their product, the sum with the committed one, a constant, a claim of each kind,
padding by one variable and a challenge. -/
def ops : List (POp (ZMod 7) (List (ZMod 7))) :=
  [.track ⟨1, [1, 2]⟩ rfl, .commit ⟨1, [3, 5]⟩ rfl, .mul 0 1, .add 2 1, .addScalar 3 6, .sumClaim 4 2, .zeroClaim 2, .evaluations 1, .incBack 1 1,
    .incFront 0 2, .challenge "x", .mulScalar 4 3, .sub 4 0]

/-- The prover's state after it. -/
def state : PState (ZMod 7) (List (ZMod 7)) :=
  match runOps PEx.com PEx.orc PState.init ops with
  | .ok s => s
  | .error _ => PState.init

/-- A proof carrying the commitment and the claimed sum. -/
def proof : CompiledProof (ZMod 7) (List (ZMod 7)) Unit := { (CompiledProof.default : CompiledProof (ZMod 7) (List (ZMod 7)) Unit) with comms := [(1, [3, 5])], sumcheckClaims := [(5, 4)] }

/-- Closed forms of public tables. -/
def closed (p : Mle (ZMod 7)) (x : List (ZMod 7)) : Res (ZMod 7) := .ok (mle p.tbl x)

theorem run : runOps PEx.com PEx.orc PState.init ops = .ok state := by decide +kernel

theorem commits : CommitsOk PEx.com ops := by
  intro p wf h
  simp only [ops, List.mem_cons, reduceCtorEq, List.not_mem_nil, or_false, false_or] at h
  injection h with h
  exact ⟨[3, 5], by rw [h]; rfl⟩

theorem comms : state.tracker.comms = [(1, [3, 5])] ∧ state.tracker.sumClaims = [(5, 2)] ∧ state.tracker.zeroClaims = [2] ∧
    state.handles.map (·.id) = [0, 1, 2, 3, 5, 6, 7, 8, 9] := by decide +kernel

theorem covers : (∀ id c, state.tracker.comms.lookup id = some c → proof.comms.lookup id = some c) ∧
    ∀ e ∈ state.tracker.sumClaims, ∃ s, proof.sumcheckClaims.lookup e.1 = some s := by
  constructor
  · intro id c h
    rw [comms.1] at h
    exact h
  · rw [comms.2.1]
    intro e he
    obtain rfl : e = _ := by simpa using he
    exact ⟨4, rfl⟩

theorem pubOk : PubOk closed := fun _ _ _ _ => rfl

end JEx

/-! ### C33 -/

/-- C33 (verifier): any further history keeps the old handles in place, only adds handles whose identifiers are larger than all earlier ones and
pairwise different, and every old handle evaluates as before at every point, whatever the answers to queries are; commitments stay in place. -/
theorem C33_verifier_ids_fresh (hr : VReachable debug H vs) (ops : List (VOp F C B)) (h : runVOps debug H vs ops = .ok vs') :
    ∃ new : List Nat, vs'.handles = vs.handles ++ new ∧ vs'.handles.Pairwise (· < ·) ∧ vs'.handles.Nodup ∧
      (∀ a ∈ vs.handles, ∀ b ∈ new, a < b) ∧
      (∀ a ∈ vs.handles, ∀ ans x, vEval vs' ans a x = vEval vs ans a x) ∧
      ∀ a ∈ vs.handles, vs'.st.own.matComms.lookup a = vs.st.own.matComms.lookup a := by
  have hs := runVOps_stepOk hr.inv ops h
  obtain ⟨new, e, _, hlt⟩ := hs.handles
  have hlt' : ∀ a ∈ vs.handles, a < vs.st.own.idCounter := by
    intro a ha
    obtain ⟨c, hc⟩ := Option.isSome_iff_exists.1 (hr.inv.known a ha)
    exact hr.inv.wf.lt a c hc
  have hp : vs'.handles.Pairwise (· < ·) := by
    obtain ⟨ops', h'⟩ := hr
    have : runVOps debug H VState.init (ops' ++ ops) = .ok vs' := by
      unfold runVOps at h h' ⊢
      rw [List.foldlM_append, h', ok_bind, h]
    obtain ⟨n', e', p', _⟩ := (runVOps_stepOk vinv_init _ this).handles
    rw [e']; simpa [VState.init] using p'
  refine ⟨new, e, hp, hp.imp (fun h => Nat.ne_of_lt h), ?_, ?_, ?_⟩
  · intro a ha b hb
    exact lt_of_lt_of_le (hlt' a ha) (hlt b hb).1
  · intro a ha ans x
    exact VSt.evalC_keep hr.inv.wf hs.keep (hr.inv.known a ha) _ x
  · intro a ha
    have key := fun c => hs.mats a c (hlt' a ha)
    rcases h1 : vs.st.own.matComms.lookup a with _ | c
    · rcases h2 : vs'.st.own.matComms.lookup a with _ | c
      · rfl
      · rw [(key c).1 h2] at h1; simp at h1
    · exact (key c).2 h1

/-- A verifier history with three handles and one skipped identifier. -/
example : ∃ vs : VState (ZMod 7) (List (ZMod 7)) Unit, VReachable true PEx.orc vs ∧ vs.handles = [0, 1, 3] :=
  ⟨_, ⟨[.trackComm [1, 2], .virt (fun _ => .ok 3), .addScalar 0 5], rfl⟩, rfl⟩

/-! ### C41 -/

/-- C41: when a verifier holding a proof with the prover's commitments and claimed sums follows the prover's history, it never fails, and ends
with the same counter, transcript, returned identifiers, commitments and claims; and the next challenge under any label is the same.  `debug` is
whether debug assertions are on. -/
theorem C41_lockstep (p : CompiledProof F C B) (ops : List (POp F C)) (hc : CommitsOk commit ops) (h : runOps commit H PState.init ops = .ok ps)
    (hcov : ∀ id c, ps.tracker.comms.lookup id = some c → p.comms.lookup id = some c)
    (hsum : ∀ e ∈ ps.tracker.sumClaims, ∃ s, p.sumcheckClaims.lookup e.1 = some s) :
    ∃ vs : VState F C B, runVOps debug H VState.init (.setProof p :: mirrorOps pub ops) = .ok vs ∧ InStep ps vs ∧
      ∀ label, (VSt.challenge H label vs.st).1 = (PTracker.challenge H label ps.tracker).1 := by
  obtain ⟨vs, h1, h2, _⟩ := joint_all (debug := debug) (pub := pub) p ops hc h ⟨hcov, hsum⟩
  refine ⟨vs, h1, h2, fun label => ?_⟩
  unfold VSt.challenge PTracker.challenge
  rw [h2.transcript]
  rcases ps.tracker.transcript.challenge H label with e | ⟨c, tr⟩ <;> rfl

/-- The example history meets the hypotheses, and the verifier's counter and handles are as expected. -/
example : ∃ vs : VState (ZMod 7) (List (ZMod 7)) Unit, runVOps true PEx.orc VState.init (.setProof JEx.proof :: mirrorOps JEx.closed JEx.ops) = .ok vs ∧
    InStep JEx.state vs ∧ vs.handles = [0, 1, 2, 3, 5, 6, 7, 8, 9] := by
  obtain ⟨vs, h1, h2, _⟩ := C41_lockstep (debug := true) (pub := JEx.closed) JEx.proof JEx.ops JEx.commits JEx.run JEx.covers.1 JEx.covers.2
  exact ⟨vs, h1, h2, by rw [h2.handles, JEx.comms.2.2.2]⟩

/-! ### C42 -/

/-- C42 in full: after the same history, the verifier evaluates every handle at every point of the right length to what the prover's `evaluate`
gives, if queries to committed polynomials are answered truthfully. -/
def C42_statement : Prop :=
  ∀ (F C B : Type) [Field F] [DecidableEq F] (commit : Mle F → Res C) (H : Oracle F C) (debug : Bool) (pub : Mle F → List F → Res F)
    (p : CompiledProof F C B) (ops : List (POp F C)) (ps : PState F C) (vs : VState F C B) (ans : Nat → List F → Res F),
    CommitsOk commit ops → runOps commit H PState.init ops = .ok ps → runVOps debug H VState.init (.setProof p :: mirrorOps pub ops) = .ok vs →
    PubOk pub → Truthful ans ps → ∀ a ∈ ps.handles, ∀ x : List F, x.length = a.numVars →
      ∃ y, a.evaluate ps.tracker x = .ok (some y) ∧ vEval vs ans a.id x = .ok y

/-- C42, partial: it holds for every history in which evaluations are read, and variables added, only for handles for which reading
evaluations changes nothing, and variables added at the back double their number.  Missing: the other histories, for which it is false
(`C42_violated_pad`, `C42_violated_read`). -/
theorem C42_agree_partial (p : CompiledProof F C B) (ops : List (POp F C)) (hc : CommitsOk commit ops) (h : runOps commit H PState.init ops = .ok ps)
    (hcov : ∀ id c, ps.tracker.comms.lookup id = some c → p.comms.lookup id = some c)
    (hsum : ∀ e ∈ ps.tracker.sumClaims, ∃ s, p.sumcheckClaims.lookup e.1 = some s)
    (hf : FaithfulRun commit H PState.init ops) (hpub : PubOk pub) :
    ∃ vs : VState F C B, runVOps debug H VState.init (.setProof p :: mirrorOps pub ops) = .ok vs ∧
      ∀ ans, Truthful ans ps → ∀ a ∈ ps.handles, ∀ x : List F, x.length = a.numVars →
        ∃ y, a.evaluate ps.tracker x = .ok (some y) ∧ vEval vs ans a.id x = .ok y := by
  obtain ⟨vs, h1, h2, _, _, h3⟩ := joint_all (debug := debug) (pub := pub) p ops hc h ⟨hcov, hsum⟩
  have hI := (runOps_stepOk stInv_init ops h).inv
  exact ⟨vs, h1, fun ans ht a ha x hx => ⟨_, evaluate_spec hI.inv (hI.known a ha) x hx, by
    have := h3 _ Points.exact ans hpub.at ht.at hf a ha x hx
    rwa [List.take_of_length_le hx.le] at this⟩⟩

/-- Histories that neither read evaluations nor add variables are faithful, so C42 holds for them without further conditions. -/
theorem C42_arithmetic_faithful (commit : Mle F → Res C) (H : Oracle F C) (ps : PState F C) (ops : List (POp F C))
    (h : ∀ op ∈ ops, (∀ i, op ≠ .evaluations i) ∧ (∀ i k, op ≠ .incFront i k) ∧ ∀ i k, op ≠ .incBack i k) : FaithfulRun commit H ps ops := by
  induction ops generalizing ps with
  | nil => exact trivial
  | cons op ops ih =>
    refine ⟨?_, fun ps' _ => ih ps' fun o ho => h o (List.mem_cons_of_mem _ ho)⟩
    obtain ⟨h1, h2, h3⟩ := h op List.mem_cons_self
    cases op <;> first | trivial | exact absurd rfl (h1 _) | exact absurd rfl (h2 _ _) | exact absurd rfl (h3 _ _)

/-- Reading evaluations of a tracked or committed table changes nothing. -/
theorem sameAfter_mat {ps : PState F C} {a : TPoly} (h : (ps.tracker.mats.lookup a.id).isSome) : SameAfter ps a := by
  intro x _
  obtain ⟨m, hm⟩ := Option.isSome_iff_exists.1 h
  have : afterEvaluations ps a = ps.tracker := by
    unfold afterEvaluations TPoly.evaluations PTracker.evaluations
    have e : materialize a.id ps.tracker = (.ok (), ps.tracker) := by unfold materialize; rw [hm]
    rw [Act.bind_ok e, Act.bind_ok (a := m) (s' := ps.tracker) (by simp [hm])]
    rfl
  rw [this]

/-- The example history is faithful: it reads and pads only tracked and committed columns. -/
theorem JEx.faithful : FaithfulRun PEx.com PEx.orc PState.init JEx.ops := by
  have key : ∀ (pre : List (POp (ZMod 7) (List (ZMod 7)))) (i : Nat) (ps : PState (ZMod 7) (List (ZMod 7))) (a : TPoly) (b : ArcMle (ZMod 7)),
      ps.handles[i]? = some a → ps.tracker.mats.lookup a.id = some b → ∀ a', ps.handles[i]? = some a' → SameAfter ps a' := by
    intro _ i ps a b h1 h2 a' h3
    rw [h1] at h3; injection h3 with h3; subst h3
    exact sameAfter_mat (by rw [h2]; rfl)
  have step : ∀ (ps s : PState (ZMod 7) (List (ZMod 7))) (op : POp (ZMod 7) (List (ZMod 7))) (ops : List (POp (ZMod 7) (List (ZMod 7)))),
      op.run PEx.com PEx.orc ps = .ok s → Faithful ps op → FaithfulRun PEx.com PEx.orc s ops → FaithfulRun PEx.com PEx.orc ps (op :: ops) := by
    intro ps s op ops h1 h2 h3
    refine ⟨h2, fun ps' h => ?_⟩
    rw [h1] at h; injection h with h; subst h
    exact h3
  refine step _ _ _ _ rfl trivial (step _ _ _ _ rfl trivial (step _ _ _ _ rfl trivial (step _ _ _ _ rfl trivial (step _ _ _ _ rfl trivial
    (step _ _ _ _ rfl trivial (step _ _ _ _ rfl trivial (step _ _ _ _ rfl ?_ (step _ _ _ _ rfl ?_ (step _ _ _ _ rfl ?_ (step _ _ _ _ rfl trivial
    (step _ _ _ _ rfl trivial (step _ _ _ _ rfl trivial trivial))))))))))))
  · exact key [] 1 _ _ _ rfl rfl
  · intro a ha
    refine ⟨key [] 1 _ _ _ rfl rfl a ha, ?_⟩
    have : a = ⟨1, 1⟩ := by injection ha with ha; exact ha.symm
    rw [this]
  · exact key [] 0 _ _ _ rfl rfl

/-- Hence the verifier's evaluations agree on the example. -/
example : ∃ vs : VState (ZMod 7) (List (ZMod 7)) Unit, runVOps true PEx.orc VState.init (.setProof JEx.proof :: mirrorOps JEx.closed JEx.ops) = .ok vs ∧
    ∀ ans, Truthful ans JEx.state → ∀ a ∈ JEx.state.handles, ∀ x : List (ZMod 7), x.length = a.numVars →
      ∃ y, a.evaluate JEx.state.tracker x = .ok (some y) ∧ vEval vs ans a.id x = .ok y :=
  C42_agree_partial JEx.proof JEx.ops JEx.commits JEx.run JEx.covers.1 JEx.covers.2 JEx.faithful JEx.pubOk

namespace JEx2

/-- A committed column of one variable padded by two variables. -/
def opsPad : List (POp (ZMod 7) (List (ZMod 7))) := [.commit ⟨1, [3, 5]⟩ rfl, .incBack 0 2]

/-- The square of a committed column, its evaluations being read. -/
def opsRead : List (POp (ZMod 7) (List (ZMod 7))) := [.commit ⟨1, [3, 5]⟩ rfl, .mul 0 0, .evaluations 1]

def state (ops : List (POp (ZMod 7) (List (ZMod 7)))) : PState (ZMod 7) (List (ZMod 7)) :=
  match runOps PEx.com PEx.orc PState.init ops with
  | .ok s => s
  | .error _ => PState.init

def proof : CompiledProof (ZMod 7) (List (ZMod 7)) Unit := { (CompiledProof.default : CompiledProof (ZMod 7) (List (ZMod 7)) Unit) with comms := [(0, [3, 5])] }

def vstate (ops : List (POp (ZMod 7) (List (ZMod 7)))) : VState (ZMod 7) (List (ZMod 7)) Unit :=
  match runVOps true PEx.orc VState.init (.setProof proof :: mirrorOps JEx.closed ops) with
  | .ok s => s
  | .error _ => VState.init

/-- The truthful answers: the multilinear extension of the committed column at points with one coordinate; a panic elsewhere, as for a missing
entry of the query map. -/
def ans (_ : Nat) (x : List (ZMod 7)) : Res (ZMod 7) := if x.length = 1 then .ok (mle (Mle.tbl ⟨1, [3, 5]⟩) x) else .error .panic

theorem truthful {ps : PState (ZMod 7) (List (ZMod 7))} {a : ArcMle (ZMod 7)} (h1 : ps.tracker.comms = [(0, [3, 5])])
    (h2 : ps.tracker.mats.lookup 0 = some a) (h3 : a.mle = ⟨1, [3, 5]⟩) : Truthful ans ps := by
  intro id c hc x y hy
  rw [h1] at hc
  obtain rfl : id = 0 := by
    rw [lookup_cons_if] at hc
    split at hc
    · assumption
    · simp at hc
  simp only [PTracker.evaluate, h2, h3] at hy
  unfold ans
  by_cases hx : x.length = 1
  · rw [if_pos hx]
    rw [evaluate_eq ⟨1, [3, 5]⟩ rfl x hx] at hy
    injection hy with hy; injection hy with hy
    rw [hy]
  · rw [evaluate_none _ _ hx] at hy
    simp at hy

theorem commitsOk (ops : List (POp (ZMod 7) (List (ZMod 7)))) (h : ∀ p wf, POp.commit p wf ∈ ops → p = ⟨1, [3, 5]⟩) : CommitsOk PEx.com ops :=
  fun p wf hm => ⟨[3, 5], by rw [h p wf hm]; rfl⟩

end JEx2

/-- C42 fails for padding at the back by a number of variables different from the handle's: the verifier slices the point at the number of
added variables (src/tracker/verifier_tracker.rs L281). -/
theorem C42_violated_pad : ¬ C42_statement := by
  intro h
  obtain ⟨y, -, h2⟩ := h (ZMod 7) (List (ZMod 7)) Unit PEx.com PEx.orc true JEx.closed JEx2.proof JEx2.opsPad (JEx2.state JEx2.opsPad) (JEx2.vstate JEx2.opsPad) JEx2.ans
    (JEx2.commitsOk _ (by intro p wf hm; simp only [JEx2.opsPad, List.mem_cons, reduceCtorEq, List.not_mem_nil, or_false] at hm; injection hm)) (by decide +kernel) rfl JEx.pubOk
    (JEx2.truthful (a := ⟨0, ⟨1, [3, 5]⟩⟩) (by decide +kernel) (by decide +kernel) rfl) ⟨1, 3⟩ (by decide +kernel) [0, 0, 0] rfl
  have : vEval (JEx2.vstate JEx2.opsPad) JEx2.ans 1 [0, 0, 0] = .error .panic := by rfl
  rw [this] at h2
  simp at h2

/-- C42 also fails once the prover has read the evaluations of a product: its `evaluate` is multilinear from then on, the verifier's
evaluation is still the product. -/
theorem C42_violated_read : ¬ C42_statement := by
  intro h
  obtain ⟨y, h1, h2⟩ := h (ZMod 7) (List (ZMod 7)) Unit PEx.com PEx.orc true JEx.closed JEx2.proof JEx2.opsRead (JEx2.state JEx2.opsRead) (JEx2.vstate JEx2.opsRead) JEx2.ans
    (JEx2.commitsOk _ (by intro p wf hm; simp only [JEx2.opsRead, List.mem_cons, reduceCtorEq, List.not_mem_nil, or_false] at hm; injection hm)) (by decide +kernel) rfl JEx.pubOk
    (JEx2.truthful (a := ⟨0, ⟨1, [3, 5]⟩⟩) (by decide +kernel) (by decide +kernel) rfl) ⟨1, 1⟩ (by decide +kernel) [2] rfl
  have e1 : TPoly.evaluate (JEx2.state JEx2.opsRead).tracker ⟨1, 1⟩ [2] = .ok (some 6) := by decide +kernel
  have e2 : vEval (JEx2.vstate JEx2.opsRead) JEx2.ans 1 [2] = .ok 0 := by decide +kernel
  rw [e1] at h1
  rw [e2] at h2
  injection h1 with h1; injection h1 with h1
  injection h2 with h2
  rw [← h1] at h2
  exact absurd h2 (by decide)

/-! ### Answers to queries -/

theorem lookup_foldl_amInsert {κ α : Type} [BEq κ] [LawfulBEq κ] (k : κ) : ∀ (l m : List (κ × α)), (l.map (·.1)).Nodup →
    (l.foldl (fun m e => amInsert e.1 e.2 m) m).lookup k = (l.lookup k).or (m.lookup k)
  | [], m, _ => by simp
  | (a, v) :: l, m, h => by
    classical
    rw [List.map_cons, List.nodup_cons] at h
    rw [List.foldl_cons, lookup_foldl_amInsert k l _ h.2, lookup_amInsert, List.lookup_cons]
    by_cases hk : k = a
    · subst hk
      have : l.lookup k = none := List.lookup_eq_none_iff.2 fun p hp => by
        have : p.1 ≠ k := fun e => h.1 (List.mem_map.2 ⟨p, hp, e⟩)
        simpa using fun e : k = p.1 => this e.symm
      simp [this]
    · have : (k == a) = false := by simpa using hk
      simp [hk, this]

/-- C42, the answers: taking over the evaluations of a proof answers each query the proof answers, with the proof's answer; answers to other queries stay;
nothing else changes, so that every handle evaluates as before up to the new answers. -/
theorem C42_answers (s : VSt F C B) (hk : (s.own.proof.queryMap.map (·.1)).Nodup) : ∃ s' : VSt F C B, VSt.transferEvals s = (.ok (), s') ∧
    s'.own = s.own ∧ (∀ id v x, s.own.proof.queryMap.lookup (id, x) = some v → VSt.queryAns s'.sh id x = .ok v) ∧
    (∀ id x, s.own.proof.queryMap.lookup (id, x) = none → VSt.queryAns s'.sh id x = VSt.queryAns s.sh id x) ∧
    ∀ id x, VSt.evalVirtual s'.sh id x = VSt.evalC s.sh.comms (VSt.queryAns s'.sh) (id + 1) id x := by
  refine ⟨_, rfl, rfl, fun id v x h => ?_, fun id x h => ?_, fun id x => rfl⟩ <;>
  · unfold VSt.queryAns
    rw [lookup_foldl_amInsert _ _ _ hk, h]
    rfl

/-- Two answers are taken over, one of them new; a third stays. -/
example : ∃ s : VSt (ZMod 7) (List (ZMod 7)) Unit, (s.own.proof.queryMap.map (·.1)).Nodup ∧ s.own.proof.queryMap = [((0, [3]), 5), ((1, [3]), 4)] ∧
    s.sh.queries = [((0, [3]), 1), ((2, [2]), 6)] ∧ (VSt.transferEvals s).2.sh.queries.map (·.2) = [4, 5, 6] :=
  ⟨{ own := { (VState.init : VState (ZMod 7) (List (ZMod 7)) Unit).st.own with proof := { (CompiledProof.default : CompiledProof (ZMod 7) (List (ZMod 7)) Unit) with
        queryMap := [((0, [3]), 5), ((1, [3]), 4)] } },
     sh := { (VState.init : VState (ZMod 7) (List (ZMod 7)) Unit).st.sh with queries := [((0, [3]), 1), ((2, [2]), 6)] } },
    by decide, rfl, rfl, by decide +kernel⟩

end Zksql
