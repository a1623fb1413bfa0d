import Verif.Lemmas.Reach
import Verif.Props.Arith
/-! Concrete runs of the protocols over the field with seven elements, used to show that the hypotheses of the theorems are met. -/
set_option linter.unusedSectionVars false
namespace Zksql.IEx
open Zksql Spec

abbrev F7 := ZMod 7

/-- A table is its own commitment. -/
abbrev Cm := List F7

/-- Commitments always succeed, and every challenge is `γ`. -/
def env (γ : F7) : Env F7 Cm := ⟨fun p => .ok p.evals, fun _ _ => γ, true, fun x => x.val⟩

/-- The position of a point of the hypercube. -/
def index : List F7 → Nat
  | [] => 0
  | x :: xs => x.val + 2 * index xs

/-- The polynomial behind a commitment. -/
def poly (c : Cm) (x : List F7) : F7 := c.getD (index x % c.length) 0

/-- The values of a handle on the hypercube. -/
def vals (s : VSt F7 Cm Unit) (N h : Nat) : List (Res F7) := (List.range (2 ^ N)).map fun b => valueAt s poly h (boolPt N b)

/-- The values as a list, zero where there is none. -/
def oks (l : List (Res F7)) : List F7 := l.map fun r => match r with
  | .ok v => v
  | .error _ => 0

/-- All claims recorded are true. -/
def claimsOk (N : Nat) (s : VSt F7 Cm Unit) : Bool :=
  (s.own.zeroClaims.all fun h => vals s N h = List.replicate (2 ^ N) (.ok 0)) &&
    s.own.sumClaims.all fun c => vals s N c.1 = (oks (vals s N c.1)).map .ok && (oks (vals s N c.1)).sum = c.2

/-- The handle holds the table. -/
def tabOk (N : Nat) (s : VSt F7 Cm Unit) (h : Nat) (t : Mle F7) : Bool :=
  t.numVars ≤ N && vals s N h = (List.range (2 ^ N)).map fun b => .ok (t.evals.getD (b % 2 ^ t.numVars) 0)

theorem claims_of {N : Nat} {s : VSt F7 Cm Unit} (h : claimsOk N s = true) : ClaimsTrue poly N s := by
  simp only [claimsOk, Bool.and_eq_true, List.all_eq_true, decide_eq_true_eq] at h
  have key : ∀ (h : Nat) (l : List F7), vals s N h = l.map .ok → l.length = 2 ^ N ∧ Vals s poly N h fun b => l.getD b 0 := by
    intro h l e
    have hl : l.length = 2 ^ N := by simpa [vals] using (congrArg List.length e).symm
    refine ⟨hl, fun b hb => ?_⟩
    have := congrArg (fun m => m[b]?) e
    simp only [vals, List.getElem?_map, List.getElem?_range hb, Option.map_some] at this
    rcases hb' : l[b]? with _ | x
    · rw [hb'] at this; simp at this
    · rw [hb'] at this
      simp only [Option.map_some, Option.some.injEq] at this
      rw [this]; simp [List.getD_eq_getElem?_getD, hb']
  refine ⟨fun z hz => ?_, fun c hc => ?_⟩
  · have := (key z (List.replicate (2 ^ N) 0) (by rw [h.1 z hz, List.map_replicate])).2
    exact this.congr fun b hb => by simp [List.getD_eq_getElem?_getD, hb]
  · obtain ⟨h1, h2⟩ := h.2 c hc
    obtain ⟨k1, k2⟩ := key c.1 _ h1
    refine ⟨_, k2, ?_⟩
    rw [← h2]
    generalize oks (vals s N c.1) = l at k1
    unfold cubeSum
    rw [← k1]
    clear k1 k2 h1 h2 hc h key
    induction l with
    | nil => simp
    | cons x l ih =>
      rw [List.length_cons, Finset.sum_range_succ']
      simp only [List.getD_cons_succ, List.getD_cons_zero, List.sum_cons, ih]
      ring

theorem holds_of {N : Nat} {s : VSt F7 Cm Unit} {i : Nat} {t : Mle F7} (h : tabOk N s i t = true) :
    Holds s poly N i t.numVars fun b => t.evals.getD b 0 := by
  simp only [tabOk, Bool.and_eq_true, decide_eq_true_eq] at h
  refine ⟨h.1, fun b hb => ?_⟩
  have := congrArg (fun m => m[b]?) h.2
  simpa [vals, List.getElem?_map, List.getElem?_range hb] using this

/-- The honest prover: commit to the columns, then run the protocol. -/
def prun (γ : F7) (cols : List (Mle F7)) (pr : List TPoly → Act (PTracker F7 Cm) Unit) : Res Unit × PTracker F7 Cm :=
  (cols.mapM (fun p => TPoly.trackAndCommit (env γ).commit p) >>= pr) PTracker.new

/-- The commitments and claimed sums of the prover, the sums taken over the hypercube of dimension `N`. -/
def proofOf (N : Nat) (t : PTracker F7 Cm) : CompiledProof F7 Cm Unit :=
  { (CompiledProof.default : CompiledProof F7 Cm Unit) with
    comms := t.comms
    sumcheckClaims := t.sumClaims.map fun c => (c.1, match (TPoly.evaluations ⟨c.1, 0⟩ t).1 with
      | .ok l => (2 ^ N : F7) / l.length * c.2
      | .error _ => 0) }

/-- The verifier receives the columns. -/
def vstart (γ : F7) (n : Nat) (pf : CompiledProof F7 Cm Unit) : Res (VState F7 Cm Unit) :=
  runVOps true (env γ).H VState.init (.setProof pf :: List.replicate n .transferNext)

/-- Prover and verifier run; every check below passes. -/
def check (γ : F7) (N : Nat) (cols : List (Mle F7)) (pr : List TPoly → Act (PTracker F7 Cm) Unit) (vr : Act (VSt F7 Cm Unit) Unit) : Bool :=
  decide ((prun γ cols pr).1 = .ok ()) &&
    match vstart γ cols.length (proofOf N (prun γ cols pr).2) with
    | .error _ => false
    | .ok vs => (List.range cols.length).all (fun i => (vs.st.sh.comms.lookup i).isSome) &&
      decide ((vr vs.st).1 = .ok ()) && claimsOk N (vr vs.st).2 &&
      ((List.range cols.length).zip cols).all fun q => tabOk N vs.st q.1 q.2

theorem run_of {γ : F7} {N : Nat} {cols : List (Mle F7)} {pr : List TPoly → Act (PTracker F7 Cm) Unit} {vr : Act (VSt F7 Cm Unit) Unit}
    (h : check γ N cols pr vr = true) : ∃ (vs : VState F7 Cm Unit) (s' : VSt F7 Cm Unit), VReachable true (env γ).H vs ∧ vr vs.st = (.ok (), s') ∧
      ClaimsTrue poly N s' ∧ ∀ i t, cols[i]? = some t → Known vs.st i ∧ Holds vs.st poly N i t.numVars fun b => t.evals.getD b 0 := by
  simp only [check, Bool.and_eq_true, decide_eq_true_eq] at h
  obtain ⟨-, h⟩ := h
  rcases hv : vstart γ cols.length (proofOf N (prun γ cols pr).2) with e | vs
  · rw [hv] at h; simp at h
  · rw [hv] at h
    simp only [Bool.and_eq_true, decide_eq_true_eq] at h
    obtain ⟨⟨⟨h0, h1⟩, h2⟩, h3⟩ := h
    refine ⟨vs, (vr vs.st).2, ⟨_, hv⟩, Prod.ext h1 rfl, claims_of h2, fun i t ht => ?_⟩
    have hi : i < cols.length := (List.getElem?_eq_some_iff.1 ht).1
    refine ⟨List.all_eq_true.1 h0 i (List.mem_range.2 hi), holds_of (List.all_eq_true.1 h3 (i, t) ?_)⟩
    rw [List.mem_iff_getElem?]
    exact ⟨i, by rw [List.getElem?_zip_eq_some]; exact ⟨List.getElem?_range hi, ht⟩⟩

/-- A bag of two committed columns. -/
def bag (ps : List TPoly) (i j : Nat) : Bag := ⟨ps.getD i ⟨0, 0⟩, ps.getD j ⟨0, 0⟩⟩

/-- The contents of a bag. -/
def tab (v s : Mle F7) : BagTab F7 := ⟨v.numVars, fun b => v.evals.getD b 0, fun b => s.evals.getD b 0⟩

theorem holdsBag_of {N : Nat} {s : VSt F7 Cm Unit} {i j : Nat} {v w : Mle F7}
    (h1 : Holds s poly N i v.numVars fun b => v.evals.getD b 0) (h2 : Holds s poly N j w.numVars fun b => w.evals.getD b 0) (e : v.numVars = w.numVars) :
    HoldsBag s poly N ⟨i, j, v.numVars⟩ (tab v w) := ⟨rfl, h1, by rw [e.symm] at h2; exact h2⟩

end Zksql.IEx
