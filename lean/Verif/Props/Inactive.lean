import Verif.Lemmas.Inactive
import Verif.Lemmas.RunEx
import Verif.Props.Compilable
/-!
C115: rows that are switched off do not matter.
-/
set_option linter.unusedSectionVars false
namespace Zksql
open Spec
variable {F C B K : Type} [Field F] [DecidableEq F] {W W' : K → Column F} {N d : Nat}

/-- C115, one check.  If the columns differ only in rows that are switched off, then what an honest prover needs of them is the same. -/
theorem C115_valid_partial {rep : F → Nat} (c : Check K) (hf : c.Fits N W) (hf' : c.Fits N W') (h : c.SameActive W W') (h' : c.SameActive W' W) : c.Valid rep W ↔ c.Valid rep W' :=
  ⟨c.valid_same hf h, c.valid_same hf' h'⟩

/-- C115, one check.  What an accepted check says of the columns is the same as well. -/
theorem C115_means_partial {n : Nat} (c : Check K) (hf : c.Fits N W) (hf' : c.Fits N W') (h : c.SameActive W W') (h' : c.SameActive W' W) : c.Means n W ↔ c.Means n W' :=
  ⟨c.means_same hf h, c.means_same hf' h'⟩

/-- C115, the columns a join makes: they do not depend on the rows that are switched off in the tables joined. -/
theorem C115_join_columns {a b : List K × K} {ai bi : Nat} (ha : EvenTab W a) (hb : EvenTab W b) (h1 : SameTab W W' a) (h2 : SameTab W W' b) (hm : Matched (tabData W a) (tabData W b) ai bi) {c : K} (hc : c ∈ a.1) :
    ∀ i < 2 ^ (W b.2).nv, moved (W' c).val (partners (tabData W' a) (tabData W' b) ai bi) (W' b.2).val i = moved (W c).val (partners (tabData W a) (tabData W b) ai bi) (W b.2).val i :=
  moved_same (h1.alike ha) (h2.alike hb) hm fun j hj => (h1.2 c hc).2 j ((ha c hc).symm ▸ hj.1) hj.2

/-- C115, whole sessions.  Let a program be run on columns of which the rows that are switched off have been filled with anything.  If the original data is valid, the proof is accepted. -/
theorem C115_accepted_partial {K : Curve F} {V : Env F K.G1} {prog prog' : List (Step F)} {cols cols' : List (Mle F)} {γ : K.G1} {η : K.G2} {τ : List F} (hV : V.commit = kzgCommit (proverParamOf γ η τ)) (hd : 1 ≤ d)
    (hchar : NatsNonzero F (d + 1)) (h2 : (2 : F) ≠ 0) (hne : cols' ≠ []) (hf : Step.FitsAll N (startCols cols) prog) (same : Step.SameActiveAll (startCols cols) (startCols cols') prog prog')
    (h : ProgramCompilesOn cols' prog' τ.length d N) (hn : Step.RunsAll V.debug (startCols cols') prog') :
    SurelyAccepted (E := K) V γ η τ d (fun V => Step.proveAll V prog' (startHandles cols')) (fun V => Step.verifyAll V prog' (startHandles cols')) cols'
      (Step.boundsAll (startCols cols') prog') (Step.ValidAll V.rep (startCols cols) prog) := by
  obtain ⟨bad, H0⟩ := C114_accepted (K := K) (γ := γ) (η := η) hV hd hchar h2 hne h hn
  refine ⟨bad, fun H => ?_⟩
  obtain ⟨a, t', r1, r2, r3, r4⟩ := H0 H
  exact ⟨a, t', r1, r2, r3, fun hv => r4 (Step.validAll_same prog prog' _ _ hf same hv)⟩

/-- The property is false of the sort check, and so of the checks that use it on a column given to them.  Whatever the data, changing one row that is switched off, any but the first, makes the
check false, unless every field element is in the range: the difference to the row before it is checked in all rows. -/
theorem C115_violated_sort [DecidableEq K] {f range : K × K} (hne : f.1 ≠ f.2) (hr : f.1 ≠ range.1) {i : Nat} (hi : i + 1 < 2 ^ (W f.1).nv) (hs : (W f.2).val (i + 1) = 0) {x : F}
    (hx : ∀ j < 2 ^ (W range.1).nv, (W range.1).val j ≠ x) :
    ∃ W' : K → Column F, SameBag W W' f ∧ SameCol W W' range.1 ∧ (∀ k, k ≠ f.1 → W' k = W k) ∧ ∀ n rep, ¬ (Check.sort f range).Means n W' ∧ ¬ (Check.sort f range).Valid rep W' := by
  let W' : K → Column F := fun k => if k = f.1 then ⟨(W f.1).nv, fun j => if j = i + 1 then (W f.1).val i + x else (W f.1).val j⟩ else W k
  have e1 : W' f.1 = ⟨(W f.1).nv, fun j => if j = i + 1 then (W f.1).val i + x else (W f.1).val j⟩ := if_pos rfl
  have e2 : ∀ k, k ≠ f.1 → W' k = W k := fun k hk => if_neg hk
  have e3 := e2 f.2 hne.symm
  have e4 := e2 range.1 hr.symm
  have key : ¬ SortedIn (W' f.1).nv (W' range.1).nv (W' f.1).val (W' f.2).val (W' range.1).val := fun h => by
    rw [e1, e4] at h
    obtain ⟨⟨j, hj, hd⟩, -⟩ := h i hi
    refine hx j hj (hd.symm.trans ?_)
    simp
  refine ⟨W', ⟨by rw [SameCol, e3]; exact ⟨rfl, fun _ _ => rfl⟩, by rw [e1], fun j hj hsj => ?_⟩, by rw [SameCol, e4]; exact ⟨rfl, fun _ _ => rfl⟩, e2, fun n rep => ⟨fun h => key h.2.1, key⟩⟩
  rw [e1]
  have : j ≠ i + 1 := fun h => hsj (h ▸ hs)
  simp [this]

/-! ### A bag with the only value 1, checked to be sorted -/
namespace REx

abbrev E101 : Curve G := fieldCurve G

/-- The values [1, v] with the selector [1, 0], and the range {0, 1}. -/
def cols115 (v : G) : List (Mle G) := [⟨1, [1, v]⟩, ⟨1, [1, 0]⟩, ⟨1, [0, 1]⟩, ⟨1, [1, 1]⟩]

/-- Challenges that depend on the length of the history. -/
def H115 : Oracle G G := fun _ h => (h.length : G) ^ 2 + 44

def env115 (debug : Bool) : Env G G := ⟨kzgCommit (proverParamOf (E := E101) (1 : G) (1 : G) [3]), H115, debug, ZMod.val⟩

/-- A whole session. -/
def verdict115 (prog : List (Step G)) (cols : List (Mle G)) (debug : Bool) : Res Unit := do
  let r := Step.proveAll (env115 debug) prog (startHandles cols) (committed (env115 debug).commit cols)
  let _ ← r.1
  let p ← (PTracker.compile debug (kzgOf (E := E101) H115 (1 : G) (1 : G) [3]) H115 r.2).1
  let vs ← runVOps debug H115 VState.init (.setProof p :: List.replicate cols.length .transferNext)
  let r := Step.verifyAll (B := BatchProof E101) (env115 debug) prog (startHandles cols) vs.st
  let _ ← r.1
  (VSt.verifyClaims (kzgOf (E := E101) H115 (1 : G) (1 : G) [3]) H115 r.2).1

/-- A program of two checks: the bags are equal, and there are no zeros in them. -/
def prog115 : List (Step G) := [.check (.bagEq (0, 1) (2, 3)), .check (.noZeros (0, 1))]

/-- The values [1, v] and [w, 1], with the selectors [1, 0] and [0, 1]. -/
def cols115' (v w : G) : List (Mle G) := [⟨1, [1, v]⟩, ⟨1, [1, 0]⟩, ⟨1, [w, 1]⟩, ⟨1, [0, 1]⟩]

/-- Whatever is in the rows that are switched off, the session is accepted. -/
theorem accepted115 (v w : G) : SurelyAccepted (E := E101) (env115 true) (1 : G) (1 : G) [3] 3 (fun V => Step.proveAll V prog115 (startHandles (cols115' v w)))
    (fun V => Step.verifyAll V prog115 (startHandles (cols115' v w))) (cols115' v w) [4] True := by
  have fits : ∀ v w, Step.FitsAll 1 (startCols (cols115' v w)) prog115 := fun v w => by
    refine ⟨⟨?_, ?_, rfl, rfl, rfl⟩, ⟨?_, ?_, rfl⟩, trivial⟩
    all_goals first | decide | skip
    all_goals
      intro k hk
      fin_cases hk <;> first | exact le_refl 1 | exact (by decide : 0 < 4) | exact (by decide : 1 < 4) | exact (by decide : 2 < 4) | exact (by decide : 3 < 4)
  have := C115_accepted_partial (K := E101) (V := env115 true) (γ := (1 : G)) (η := (1 : G)) (τ := [3]) (d := 3) (cols := cols115' 5 7) (cols' := cols115' v w) (prog := prog115) (prog' := prog115) (N := 1)
    rfl (by decide) (fun k h1 h2 => natsNonzero k h1 (by omega)) two_ne (by simp [cols115']) (fits 5 7) ?_ ⟨?_, fits v w, .inl ⟨_, .head _, rfl⟩, by decide, le_rfl, (by decide : 2 ≤ 4 + (Step.costAll prog115).commits), (by decide : Step.degreeAll (List.replicate 4 1) prog115 ≤ 3)⟩ ⟨trivial, trivial, trivial⟩
  · rw [show Step.boundsAll (startCols (cols115' v w)) prog115 = [4] from rfl] at this
    obtain ⟨bad, h⟩ := this
    refine ⟨bad, fun H => ?_⟩
    obtain ⟨a, t', h1, h2, h3, h4⟩ := h H
    refine ⟨a, t', h1, h2, h3, fun _ => h4 ⟨?_, ?_, trivial⟩⟩
    · show ∀ z : G, _ = _
      decide +kernel
    · show ∀ i < 2 ^ 1, _
      decide +kernel
  · have b1 : SameBag (colAt (startCols (cols115' 5 7))) (colAt (startCols (cols115' v w))) (0, 1) := by
      refine ⟨⟨rfl, fun i hi => rfl⟩, rfl, fun i hi hs => ?_⟩
      have hi : i < 2 := hi
      interval_cases i
      · rfl
      · exact absurd rfl hs
    have b2 : SameBag (colAt (startCols (cols115' 5 7))) (colAt (startCols (cols115' v w))) (2, 3) := by
      refine ⟨⟨rfl, fun i hi => rfl⟩, rfl, fun i hi hs => ?_⟩
      have hi : i < 2 := hi
      interval_cases i
      · exact absurd rfl hs
      · rfl
    exact ⟨rfl, ⟨b1, b2⟩, rfl, b1, trivial⟩
  · intro p hp
    simp only [cols115', List.mem_cons, List.not_mem_nil, or_false] at hp
    rcases hp with rfl | rfl | rfl | rfl <;> exact ⟨rfl, le_refl 1⟩

/-- With some other contents it is accepted for these challenges too. -/
example : ∀ v ∈ ([0, 1, 5] : List G), verdict115 prog115 (cols115' v 9) true = .ok () := by decide +kernel

end REx

open REx in
/-- The property is false of the code.  The bag contains 1 and nothing else, whatever `v` is.  With 2 in the row that is switched off the sort check is accepted; with 0, 1, 3 or 5 it is refused. -/
theorem C115_violated : verdict115 [.check (.sort (0, 1) (2, 3))] (cols115 2) false = .ok () ∧
    ∀ v ∈ ([0, 1, 3, 5] : List G), verdict115 [.check (.sort (0, 1) (2, 3))] (cols115 v) false ≠ .ok () := by decide +kernel

end Zksql
