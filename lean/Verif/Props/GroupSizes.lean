import Verif.Props.TableChecks
/-!
Sizes in the group-by check (C80).

The verifier takes the groups to have the size of the table, and the groups are checked by the sort check, which only works over the hypercube of the groups.  So
the restrictions `T.nv = R.groups.nv` and `N = R.groups.nv` of `C80_group_by_complete_partial` cannot be dropped: `C80_honest_violated` and `C80_small_violated` show that the claim is
false without them.
-/
set_option linter.unusedSectionVars false
namespace Zksql
open Spec
variable {F C B : Type} [Field F] [DecidableEq F]
variable {E : Env F C} {s : VSt F C B} {N : Nat}

/-- The claims of the group-by check can only be true over the hypercube of the table. -/
theorem C80_size_sound {a : TableComm} {i : GroupInstr Nat} {range : BagComm} (h2 : (2 : F) ≠ 0) (hn : NatsNonzero F (2 ^ a.numVars)) (hs : Sane s)
    (ka : KnownTab s a) (kr : KnownRequest s i) (kR : Known s range.poly) :
    SoundExcept (fun H => GroupBy.verifyWithAdvice (E.withH H) a i range) s N (groupBounds a.numVars range.numVars i.aggs) fun _ _ => N = a.numVars := by
  have := groupBy_raw (E := E) (N := N) (range := range) h2 hn hs ka kr kR (2 ^ a.numVars + 2 ^ a.numVars)
  rw [gbBounds_eq] at this
  exact Snd.except hs (this.mono hs fun P _ h => h.1)

/-- C80 over every hypercube that contains the table. -/
def C80_honest_statement : Prop :=
  ∀ (F C B : Type) [Field F] [DecidableEq F] (E : Env F C) (P : C → List F → F) (N : Nat) (t : PTracker F C) (a : Table) (T : TabData F) (i : GroupInstr TPoly) (R : GroupData F)
    (range : Bag) (r : Nat) (ρ : Nat → F), (2 : F) ≠ 0 → CanCommit E.commit N → Ready E.commit t → HoldsTabP t a T → HoldsRequestP t i R → HoldsP t range.poly ρ →
    range.poly.numVars = r → R.InRange T → T.nv = R.groups.nv → R.groups.nv ≤ N → r ≤ N →
    Completes (B := B) E P N (fun E => GroupBy.proveWithAdvice E a i range) (fun E => GroupBy.verifyWithAdvice E (sameTab a) (sameInstr i) (sameBag range)) t
      ([2 ^ T.nv + 2 ^ R.groups.nv] ++ hSort R.groups.nv r ++ hSums (2 ^ T.nv + 2 ^ R.groups.nv) R)
      (fun s => KnownTab s (sameTab a) ∧ KnownRequest s (sameInstr i) ∧ Known s range.poly.id)
      (fun s => HoldsTab s P N (sameTab a) T ∧ HoldsRequest s P N (sameInstr i) R ∧ Holds s P N range.poly.id r ρ)
      (T.Boolean ∧ GroupsOf T R ∧ NatsNonzero F (2 ^ T.nv) ∧ SortedIn R.groups.nv r R.groups.val R.groups.sel ρ)

/-- C80 over the hypercube of the table, for groups that are not larger than the table. -/
def C80_small_statement : Prop :=
  ∀ (F C B : Type) [Field F] [DecidableEq F] (E : Env F C) (P : C → List F → F) (N : Nat) (t : PTracker F C) (a : Table) (T : TabData F) (i : GroupInstr TPoly) (R : GroupData F)
    (range : Bag) (r : Nat) (ρ : Nat → F), (2 : F) ≠ 0 → CanCommit E.commit N → Ready E.commit t → HoldsTabP t a T → HoldsRequestP t i R → HoldsP t range.poly ρ →
    range.poly.numVars = r → R.InRange T → R.groups.nv ≤ T.nv → T.nv = N → r ≤ N →
    Completes (B := B) E P N (fun E => GroupBy.proveWithAdvice E a i range) (fun E => GroupBy.verifyWithAdvice E (sameTab a) (sameInstr i) (sameBag range)) t
      ([2 ^ T.nv + 2 ^ R.groups.nv] ++ hSort R.groups.nv r ++ hSums (2 ^ T.nv + 2 ^ R.groups.nv) R)
      (fun s => KnownTab s (sameTab a) ∧ KnownRequest s (sameInstr i) ∧ Known s range.poly.id)
      (fun s => HoldsTab s P N (sameTab a) T ∧ HoldsRequest s P N (sameInstr i) R ∧ Holds s P N range.poly.id r ρ)
      (T.Boolean ∧ GroupsOf T R ∧ NatsNonzero F (2 ^ T.nv) ∧ SortedIn R.groups.nv r R.groups.val R.groups.sel ρ)

namespace REx

/-- The run for two sales meets the hypotheses of `C80_size_sound`, with claims that are true. -/
example : NatsNonzero G (2 ^ 1) ∧ ∃ (H : Oracle G (Mle G)) (vs : VState G (Mle G) Unit) (y : TableComm) (s' : VSt G (Mle G) Unit), VReachable true H vs ∧ Sane vs.st ∧
    GroupBy.verifyWithAdvice (env.withH H) ⟨[0, 1], 2, 1⟩ (sameInstr request) ⟨4, 4, 1⟩ vs.st = (.ok y, s') ∧ ClaimsTrue poly 1 s' := by
  obtain ⟨H, -, -, vs, y, s', -, h1, h2, h3, -⟩ := run_group
  exact ⟨natsNonzero_mono natsNonzero (by decide), H, vs, y, s', h1, h1.sane, h2, h3⟩

/-- The committed columns of the sales, and one group with key 3, two rows and the sum 30 in columns of one row. -/
def smallCols : List (Mle G) := [⟨1, [3, 3]⟩, ⟨1, [10, 20]⟩, ⟨1, [1, 1]⟩, ⟨0, [3]⟩, ⟨0, [1]⟩, ⟨0, [2]⟩, ⟨0, [30]⟩, ⟨1, [0, 1]⟩]

/-- The contents of the request. -/
def smallKey : GroupData G := ⟨0, ⟨0, Mle.tbl ⟨0, [3]⟩, Mle.tbl ⟨0, [1]⟩⟩, Mle.tbl ⟨0, [2]⟩, [(1, .count, Mle.tbl ⟨0, [2]⟩), (1, .sum, Mle.tbl ⟨0, [30]⟩)]⟩

/-- The request. -/
def smallRequest : GroupInstr TPoly := ⟨[0], [⟨3, 0⟩], ⟨4, 0⟩, ⟨5, 0⟩, [(1, .count, ⟨5, 0⟩), (1, .sum, ⟨6, 0⟩)]⟩

/-- The same columns read as columns of two rows. -/
def twice : GroupData G := ⟨0, ⟨1, fun _ => 3, fun _ => 1⟩, fun _ => 2, [(1, .count, fun _ => 2), (1, .sum, fun _ => 30)]⟩

theorem smallKey_ok : GroupsOf sales smallKey :=
  ⟨by decide +kernel, by decide +kernel, by decide +kernel, by decide +kernel, by decide +kernel⟩

theorem holds_twice {s : VSt G (Mle G) Unit} {h : Nat} {c : G} (hv : Holds s poly 1 h 0 (Mle.tbl ⟨0, [c]⟩)) : Holds s poly 1 h 1 fun _ => c :=
  ⟨le_rfl, fun b hb => by
    have := hv.2 b hb
    simpa [Nat.mod_one, Mle.tbl] using this⟩

end REx

open REx in
/-- C80 fails over larger hypercubes: the two sales, with the claims settled over four rows. -/
theorem C80_honest_violated : ¬ C80_honest_statement := by
  intro hst
  obtain ⟨H, vs, h1, hk, hv, h⟩ := REx.cheat (N := 2) (bounds2 := groupBounds 1 1 (sameInstr request).aggs) groupCols (by decide) (by decide)
    (fun hr hp => hst G (Mle G) Unit env poly 2 _ (tabl [0, 1] 2 1) sales request perKey (bag 4 4 1) 1 (Mle.tbl ⟨1, [0, 1]⟩) two_ne (canCommit 2) hr
      ⟨rfl, hp 2 _ rfl, rfl, hp 0 _ rfl, rfl, hp 1 _ rfl, trivial⟩
      ⟨rfl, ⟨_, rfl, rfl, rfl, hp 3 _ rfl, hp 4 _ rfl⟩, rfl, hp 5 _ rfl, rfl, rfl, rfl, hp 5 _ rfl, rfl, rfl, rfl, hp 6 _ rfl, trivial⟩ (hp 4 _ rfl) rfl
      ⟨by decide, by decide⟩ rfl (by decide) (by decide))
    (by decide) ⟨by unfold TabData.Boolean; decide +kernel, perKey_ok, natsNonzero_mono natsNonzero (by decide), REx.sortedIn_of (by decide +kernel)⟩
    (fun s k => ⟨⟨by simpa [tabl, sameTab] using ⟨k 0 _ rfl, k 1 _ rfl⟩, k 2 _ rfl⟩,
      ⟨by simpa [request, sameInstr] using k 3 _ rfl, k 4 _ rfl, k 5 _ rfl, by simpa [request, sameInstr] using ⟨k 5 _ rfl, k 6 _ rfl⟩⟩, k 4 _ rfl⟩)
    (fun s h => ⟨⟨rfl, h 2 _ rfl, h 0 _ rfl, h 1 _ rfl, trivial⟩, ⟨rfl, ⟨_, rfl, h 3 _ rfl⟩, h 4 _ rfl, h 5 _ rfl, rfl, rfl, h 5 _ rfl, rfl, rfl, h 6 _ rfl, trivial⟩, h 4 _ rfl⟩)
  obtain ⟨pf, hc⟩ := h _ (C80_size_sound (a := sameTab (tabl [0, 1] 2 1)) (i := sameInstr request) (range := sameBag (bag 4 4 1)) (E := env) (N := 2)
    two_ne (natsNonzero_mono REx.natsNonzero (by decide)) h1.sane ⟨by simpa [tabl, sameTab] using ⟨hk 0 _ rfl, hk 1 _ rfl⟩, hk 2 _ rfl⟩
    ⟨by simpa [request, sameInstr] using hk 3 _ rfl, hk 4 _ rfl, hk 5 _ rfl, by simpa [request, sameInstr] using ⟨hk 5 _ rfl, hk 6 _ rfl⟩⟩ (hk 4 _ rfl))
  exact absurd hc (by decide)

open REx in
/-- C80 fails for groups smaller than the table: the two sales with the same key, and the groups in columns of one row.  The verifier reads them as columns with two equal rows. -/
theorem C80_small_violated : ¬ C80_small_statement := by
  intro hst
  obtain ⟨H, vs, h1, hk, hv, h⟩ := REx.cheat (N := 1) (bounds2 := groupBounds 1 1 (sameInstr smallRequest).aggs) smallCols (by decide) (by decide)
    (fun hr hp => hst G (Mle G) Unit env poly 1 _ (tabl [0, 1] 2 1) sales smallRequest smallKey (bag 7 7 1) 1 (Mle.tbl ⟨1, [0, 1]⟩) two_ne (canCommit 1) hr
      ⟨rfl, hp 2 _ rfl, rfl, hp 0 _ rfl, rfl, hp 1 _ rfl, trivial⟩
      ⟨rfl, ⟨_, rfl, rfl, rfl, hp 3 _ rfl, hp 4 _ rfl⟩, rfl, hp 5 _ rfl, rfl, rfl, rfl, hp 5 _ rfl, rfl, rfl, rfl, hp 6 _ rfl, trivial⟩ (hp 7 _ rfl) rfl
      ⟨by decide, by decide⟩ (by decide) rfl (by decide))
    (by decide) ⟨by unfold TabData.Boolean; decide +kernel, smallKey_ok, natsNonzero_mono natsNonzero (by decide), REx.sortedIn_of (by decide +kernel)⟩
    (fun s k => ⟨⟨by simpa [tabl, sameTab] using ⟨k 0 _ rfl, k 1 _ rfl⟩, k 2 _ rfl⟩,
      ⟨by simpa [smallRequest, sameInstr] using k 3 _ rfl, k 4 _ rfl, k 5 _ rfl, by simpa [smallRequest, sameInstr] using ⟨k 5 _ rfl, k 6 _ rfl⟩⟩, k 7 _ rfl⟩)
    (fun s h => ⟨⟨rfl, h 2 _ rfl, h 0 _ rfl, h 1 _ rfl, trivial⟩, ⟨rfl, ⟨_, rfl, h 3 _ rfl⟩, h 4 _ rfl, h 5 _ rfl, rfl, rfl, h 5 _ rfl, rfl, rfl, h 6 _ rfl, trivial⟩, h 7 _ rfl⟩)
  obtain ⟨pf, hc⟩ := h _ (C79_group_by_sound_partial (a := sameTab (tabl [0, 1] 2 1)) (i := sameInstr smallRequest) (range := sameBag (bag 7 7 1)) (E := env) (N := 1) (M := 2)
    two_ne (by decide) (natsNonzero_mono REx.natsNonzero (by decide)) h1.sane ⟨by simpa [tabl, sameTab] using ⟨hk 0 _ rfl, hk 1 _ rfl⟩, hk 2 _ rfl⟩
    ⟨by simpa [smallRequest, sameInstr] using hk 3 _ rfl, hk 4 _ rfl, hk 5 _ rfl, by simpa [smallRequest, sameInstr] using ⟨hk 5 _ rfl, hk 6 _ rfl⟩⟩ (hk 7 _ rfl))
  have w3 := holds_twice (hv 3 _ rfl)
  have w4 := holds_twice (hv 4 _ rfl)
  have w5 := holds_twice (hv 5 _ rfl)
  have w6 := holds_twice (hv 6 _ rfl)
  obtain ⟨hnd, -⟩ := hc ⟨_, hv 7 _ rfl, by decide +kernel⟩ sales twice ⟨rfl, hv 2 _ rfl, hv 0 _ rfl, hv 1 _ rfl, trivial⟩
    ⟨rfl, ⟨_, rfl, w3⟩, w4, w5, rfl, rfl, w5, rfl, rfl, w6, trivial⟩ (by unfold TabData.Boolean; decide +kernel) rfl
  revert hnd
  decide +kernel

end Zksql
