import Verif.Lemmas.HonestEx
import Verif.Props.Arith
import Verif.Spec.Advice
import Mathlib.Tactic.NormNum.Prime
import Mathlib.FieldTheory.Finite.Basic
/-! Concrete whole runs over the field with 101 elements, used to show that the hypotheses of the theorems are met. -/
set_option linter.unusedSectionVars false
namespace Zksql.REx
open Zksql Spec

instance : Fact (Nat.Prime 101) := ⟨by norm_num⟩

abbrev G := ZMod 101

/-- A table is its own commitment. -/
def env : Env G (Mle G) := ⟨fun p => .ok p, fun _ _ => 0, true, fun x => x.val⟩

/-- The position of a point of the hypercube. -/
def index : List G → Nat
  | [] => 0
  | x :: xs => x.val + 2 * index xs

/-- The polynomial behind a commitment: the table, repeated. -/
def poly (c : Mle G) (x : List G) : G := c.tbl (index x % 2 ^ c.numVars)

theorem index_bits (f : Nat → Nat) (n : Nat) : ∀ k b, (∀ j < n, f j = k + j) → b < 2 ^ n → index ((List.range n).map fun j => if (b * 2 ^ k).testBit (f j) then 1 else 0) = b := by
  induction n generalizing f with
  | zero =>
    intro k b _ hb
    have : b < 1 := by simpa using hb
    simp only [List.range_zero, List.map_nil, index]
    omega
  | succ n ih =>
    intro k b hf hb
    rw [List.range_succ_eq_map, List.map_cons, List.map_map]
    show (if (b * 2 ^ k).testBit (f 0) then (1 : G) else 0).val + 2 * index _ = b
    have h1 := ih (fun j => k + j) k (b / 2) (fun j _ => rfl) (by omega)
    have e : ((fun j => if (b * 2 ^ k).testBit (f j) then (1 : G) else 0) ∘ Nat.succ) = fun j => if (b * 2 ^ k).testBit (f (j + 1)) then (1 : G) else 0 := rfl
    have e2 : (List.range n).map (fun j => if (b * 2 ^ k).testBit (f (j + 1)) then (1 : G) else 0) = (List.range n).map fun j => if (b / 2 * 2 ^ k).testBit (k + j) then (1 : G) else 0 := by
      refine List.map_congr_left fun j hj => ?_
      rw [hf (j + 1) (by simpa using hj), Nat.testBit_mul_two_pow, Nat.testBit_mul_two_pow, Nat.testBit_div_two]
      simp [show k + (j + 1) - k = j + 1 by omega, show k ≤ k + (j + 1) by omega]
    rw [e, e2, h1, hf 0 (by omega), Nat.testBit_mul_two_pow]
    simp only [Nat.add_zero, le_refl, decide_true, Bool.true_and, Nat.sub_self, Nat.testBit_zero]
    have v1 : (1 : G).val = 1 := rfl
    have v0 : (0 : G).val = 0 := rfl
    rcases Nat.mod_two_eq_zero_or_one b with hb' | hb' <;> simp [hb', v1, v0] <;> omega

theorem index_boolPt (n b : Nat) (hb : b < 2 ^ n) : index (boolPt n b) = b := by
  have := index_bits id n 0 b (fun j _ => by simp) hb
  simpa [boolPt] using this

theorem canCommit (N : Nat) : CanCommit env.commit N := fun p _ _ => ⟨p, rfl⟩

theorem opens (N : Nat) : Opens env.commit poly N := by
  intro p c _ _ hc b hb
  obtain rfl : p = c := Except.ok.inj hc
  show p.tbl _ = _
  rw [index_boolPt N b hb]

theorem plenty {n : Nat} (h : n < 101) : Plenty G n := by
  intro S hS
  by_contra hc
  push Not at hc
  have : S = Finset.univ := Finset.eq_univ_of_forall hc
  rw [this, Finset.card_univ, ZMod.card] at hS
  omega

theorem two_ne : (2 : G) ≠ 0 := by decide

theorem canonical : Canonical env.rep := ⟨rfl, fun x => ZMod.natCast_zmod_val x⟩

theorem natsNonzero : NatsNonzero G 100 := by
  intro i h1 h2 h
  rw [ZMod.natCast_eq_zero_iff] at h
  exact absurd (Nat.le_of_dvd h1 h) (by omega)

/-! The conditions on concrete tables can be checked by evaluation. -/

instance (t : BagTab G) (z : G) : Decidable (t.Active z) := inferInstanceAs (Decidable (∃ i < 2 ^ t.nv, _))
instance (t : BagTab G) : Decidable t.Boolean := inferInstanceAs (Decidable (∀ i < 2 ^ t.nv, _))
instance (t : BagTab G) : Decidable t.Nodup := inferInstanceAs (Decidable (∀ i < 2 ^ t.nv, ∀ j < 2 ^ t.nv, _))
instance (r : Nat) (ρ : Nat → G) (M : Nat) : Decidable (Covers r ρ M) := inferInstanceAs (Decidable (∀ k < M, ∃ j < 2 ^ r, _))
instance (t : BagTab G) (rep : G → Nat) (M : Nat) : Decidable (t.Below rep M) := inferInstanceAs (Decidable (∀ i < 2 ^ t.nv, _))

theorem sortedIn_of {n r : Nat} {T σ ρ : Nat → G} (h : ∀ i < 2 ^ n - 1, (∃ j < 2 ^ r, T (i + 1) - T i = ρ j) ∧ (σ i ≠ 0 → T (i + 1) - T i ≠ 0)) : SortedIn n r T σ ρ :=
  fun i hi => h i (by omega)

/-- The contents of two columns. -/
def tab (p q : Mle G) : BagTab G := ⟨p.numVars, p.tbl, q.tbl⟩

/-- Two committed columns. -/
def bag (i j nv : Nat) : Bag := ⟨⟨i, nv⟩, ⟨j, nv⟩⟩

/-- Whole runs over this field. -/
theorem whole {N : Nat} (cols : List (Mle G)) (hcols : (cols.all fun p => p.evals.length = 2 ^ p.numVars ∧ p.numVars ≤ N) = true) (hne : cols ≠ [])
    {m : Env G (Mle G) → Act (PTracker G (Mle G)) Unit} {v : Env G (Mle G) → Act (VSt G (Mle G) Unit) Unit} {bounds : List Nat}
    {Inputs Contents : VSt G (Mle G) Unit → Prop} {Valid Fits : Prop}
    (h : Ready env.commit (startP env.commit cols PTracker.new) → (∀ i p, cols[i]? = some p → HoldsP (startP env.commit cols PTracker.new) ⟨i, p.numVars⟩ p.tbl) →
      Completes env poly N m v (startP env.commit cols PTracker.new) bounds Inputs Contents Valid Fits)
    (hb : (bounds.all fun n => n < 101) = true) (hv : Valid)
    (hin : ∀ s : VSt G (Mle G) Unit, (∀ i p, cols[i]? = some p → Known s i) → Inputs s)
    (hco : ∀ s : VSt G (Mle G) Unit, (∀ i p, cols[i]? = some p → Holds s poly N i p.numVars p.tbl) → Contents s) (hx : Fits := by trivial) :
    ∃ (H : Oracle G (Mle G)) (vs : VState G (Mle G) Unit) (s' : VSt G (Mle G) Unit), VReachable true H vs ∧ v (env.withH H) vs.st = (.ok (), s') ∧ ClaimsTrue poly N s' ∧
      (∀ i p, cols[i]? = some p → Known vs.st i) ∧ ∀ i p, cols[i]? = some p → Holds vs.st poly N i p.numVars p.tbl := by
  refine Completes.whole (E := env) (canCommit N) (opens N) (fun p hp => ?_) hne h (fun n hn => plenty ?_) hv CompiledProof.default hin hco hx
  · have := List.all_eq_true.1 hcols p hp
    simp only [decide_eq_true_eq] at this
    exact ⟨this.1, this.2⟩
  · simpa using List.all_eq_true.1 hb n hn

/-- Whole runs over this field, with what the calls return. -/
theorem wholeR {α β : Type} {N : Nat} (cols : List (Mle G)) (hcols : (cols.all fun p => p.evals.length = 2 ^ p.numVars ∧ p.numVars ≤ N) = true) (hne : cols ≠ [])
    {m : Env G (Mle G) → Act (PTracker G (Mle G)) α} {v : Env G (Mle G) → Act (VSt G (Mle G) Unit) β} {bounds : List Nat}
    {Inputs Contents : VSt G (Mle G) Unit → Prop} {Valid Fits : Prop}
    (h : Ready env.commit (startP env.commit cols PTracker.new) → (∀ i p, cols[i]? = some p → HoldsP (startP env.commit cols PTracker.new) ⟨i, p.numVars⟩ p.tbl) →
      Completes env poly N m v (startP env.commit cols PTracker.new) bounds Inputs Contents Valid Fits)
    (hb : (bounds.all fun n => n < 101) = true) (hv : Valid)
    (hin : ∀ s : VSt G (Mle G) Unit, (∀ i p, cols[i]? = some p → Known s i) → Inputs s)
    (hco : ∀ s : VSt G (Mle G) Unit, (∀ i p, cols[i]? = some p → Holds s poly N i p.numVars p.tbl) → Contents s) (hx : Fits := by trivial) :
    ∃ (H : Oracle G (Mle G)) (a : α) (t' : PTracker G (Mle G)) (vs : VState G (Mle G) Unit) (b : β) (s' : VSt G (Mle G) Unit),
      m (env.withH H) (startP env.commit cols PTracker.new) = (.ok a, t') ∧ VReachable true H vs ∧ v (env.withH H) vs.st = (.ok b, s') ∧ ClaimsTrue poly N s' ∧
      (∀ i p, cols[i]? = some p → Known vs.st i) ∧ ∀ i p, cols[i]? = some p → Holds vs.st poly N i p.numVars p.tbl := by
  refine Completes.wholeR (E := env) (canCommit N) (opens N) (fun p hp => ?_) hne h (fun n hn => plenty ?_) hv CompiledProof.default hin hco hx
  · have := List.all_eq_true.1 hcols p hp
    simp only [decide_eq_true_eq] at this
    exact ⟨this.1, this.2⟩
  · simpa using List.all_eq_true.1 hb n hn

end Zksql.REx
