import Verif.Spec.Release
import Verif.Props.Guards
/-!
C92: memory is given back when the last handle is dropped.  True of provers, false of verifiers.
-/
namespace Zksql
open Spec
variable {F C B : Type}

/-- What a program can still reach is not released. -/
theorem C92_held_kept {O : Type} {refs : O → O → Prop} {held : O → Prop} {p o : O} (hp : ¬ Released refs held p) (h : refs p o) :
    ¬ Released refs held o ∧ (∀ q, held q → ¬ Released refs held q) := by
  refine ⟨fun ⟨_, _, hr⟩ => hp (hr p h), fun q hq ⟨_, hn, _⟩ => hn hq⟩

/-- Provers: exactly the trackers without handles are released, and the tables all of whose trackers are. -/
theorem C92_prover (heap : PHeap F C) (handles : List Nat) :
    (∀ k, Released heap.refs (heldByP handles) (.tracker k) ↔ k ∉ handles) ∧
    ∀ ptr, Released heap.refs (heldByP handles) (.table ptr) ↔ ∀ k ∈ handles, ∀ t, heap[k]? = some t → ∀ e ∈ t.mats, e.2.ptr ≠ ptr := by
  have ht : ∀ k, Released heap.refs (heldByP handles) (.tracker k) ↔ k ∉ handles := by
    intro k
    constructor
    · rintro ⟨_, hn, _⟩ hk
      exact hn ⟨k, hk, rfl⟩
    · intro hk
      refine .release _ ?_ ?_
      · rintro ⟨k', hk', e⟩
        cases e
        exact hk hk'
      · intro p hp
        cases p <;> exact hp.elim
  refine ⟨ht, fun ptr => ?_⟩
  constructor
  · rintro ⟨_, _, hr⟩ k hk t e x hx hptr
    exact (ht k).mp (hr (.tracker k) ⟨t, e, x, hx, hptr⟩) hk
  · intro h
    refine .release _ (fun ⟨_, _, e⟩ => by cases e) fun p hp => ?_
    cases p with
    | table _ => exact hp.elim
    | tracker k =>
      obtain ⟨t, e, x, hx, hptr⟩ := hp
      exact (ht k).mpr fun hk => h k hk t e x hx hptr

/-- Verifiers: a tracker without handles is released; its maps only if no handle in them was computed from other handles. -/
theorem C92_verifier (mem : VMem F C B) (handles : List Nat) :
    (∀ k, Released mem.refs (heldBy handles) (.tracker k) ↔ k ∉ handles) ∧
    (∀ a, Released mem.refs (heldBy handles) (.comms a) ↔
      (∀ k ∈ handles, ∀ t a', mem.trackers[k]? = some (t, a') → a' ≠ a) ∧ ∀ sh, mem.maps[a]? = some sh → ∀ e ∈ sh.comms, isDerived e.2 = false) ∧
    ∀ a, Released mem.refs (heldBy handles) (.queries a) ↔
      (∀ k ∈ handles, ∀ t a', mem.trackers[k]? = some (t, a') → a' ≠ a) ∧
      ((∀ sh, mem.maps[a]? = some sh → ∀ e ∈ sh.comms, isDerived e.2 = false) ∨
        ∀ sh, mem.maps[a]? = some sh → ∀ e ∈ sh.comms, isCommitted e.2 = false) := by
  have ht : ∀ k, Released mem.refs (heldBy handles) (.tracker k) ↔ k ∉ handles := by
    intro k
    constructor
    · rintro ⟨_, hn, _⟩ hk
      exact hn ⟨k, hk, rfl⟩
    · intro hk
      refine .release _ ?_ ?_
      · rintro ⟨k', hk', e⟩
        cases e
        exact hk hk'
      · intro p hp
        cases p with
        | tracker j => obtain ⟨_, _, _, h | h⟩ := hp <;> cases h
        | comms a =>
          obtain ⟨_, _, ⟨_, c⟩, _, h⟩ := hp
          cases c <;> first | exact h.elim | cases h
        | queries a => exact hp.elim
  have hself : ∀ a, Released mem.refs (heldBy handles) (.comms a) → ¬ mem.refs (.comms a) (.comms a) := by
    intro a h
    generalize ho : Cell.comms a = o at h
    induction h with
    | release o hn hr ih =>
      subst ho
      intro hs
      exact ih _ hs rfl hs
  have hself' : ∀ a, mem.refs (.comms a) (.comms a) ↔ ∃ sh, mem.maps[a]? = some sh ∧ ∃ e ∈ sh.comms, isDerived e.2 = true := by
    intro a
    show (∃ sh, _ ∧ ∃ e ∈ _, _) ↔ _
    refine exists_congr fun sh => and_congr_right fun _ => exists_congr fun e => and_congr_right fun _ => ?_
    rcases e with ⟨_, c⟩
    cases c <;> simp [VComm.captures, isDerived]
  have hq' : ∀ a, mem.refs (.comms a) (.queries a) ↔ ∃ sh, mem.maps[a]? = some sh ∧ ∃ e ∈ sh.comms, isCommitted e.2 = true := by
    intro a
    show (∃ sh, _ ∧ ∃ e ∈ _, _) ↔ _
    refine exists_congr fun sh => and_congr_right fun _ => exists_congr fun e => and_congr_right fun _ => ?_
    rcases e with ⟨_, c⟩
    cases c <;> simp [VComm.captures, isCommitted]
  have hcross : ∀ a b, mem.refs (.comms b) (.comms a) ∨ mem.refs (.comms b) (.queries a) → b = a := by
    rintro a b (⟨_, _, ⟨_, c⟩, _, h⟩ | ⟨_, _, ⟨_, c⟩, _, h⟩) <;> cases c <;> simp [VComm.captures] at h <;> exact h.symm
  have hc : ∀ a, Released mem.refs (heldBy handles) (.comms a) ↔
      (∀ k ∈ handles, ∀ t a', mem.trackers[k]? = some (t, a') → a' ≠ a) ∧ ∀ sh, mem.maps[a]? = some sh → ∀ e ∈ sh.comms, isDerived e.2 = false := by
    intro a
    constructor
    · intro h
      refine ⟨?_, ?_⟩
      · rintro k hk t _ e rfl
        obtain ⟨_, _, hr⟩ := h
        exact (ht k).mp (hr (.tracker k) ⟨t, _, e, .inl rfl⟩) hk
      · intro sh hsh e he
        by_contra hd
        exact hself a h ((hself' a).mpr ⟨sh, hsh, e, he, by simpa using hd⟩)
    · rintro ⟨h1, h2⟩
      refine .release _ (fun ⟨_, _, e⟩ => by cases e) fun p hp => ?_
      cases p with
      | tracker k =>
        obtain ⟨t, a', e, h | h⟩ := hp
        · cases h
          exact (ht k).mpr fun hk => h1 k hk t _ e rfl
        · cases h
      | comms b =>
        obtain rfl := hcross a b (.inl hp)
        obtain ⟨sh, hsh, e, he, hd⟩ := (hself' b).mp hp
        rw [h2 sh hsh e he] at hd
        cases hd
      | queries b => exact hp.elim
  refine ⟨ht, hc, fun a => ?_⟩
  constructor
  · rintro ⟨_, _, hr⟩
    refine ⟨?_, ?_⟩
    · rintro k hk t _ e rfl
      exact (ht k).mp (hr (.tracker k) ⟨t, _, e, .inr rfl⟩) hk
    · by_cases h : mem.refs (.comms a) (.queries a)
      · exact .inl ((hc a).mp (hr _ h)).2
      · refine .inr fun sh hsh e he => ?_
        by_contra hd
        exact h ((hq' a).mpr ⟨sh, hsh, e, he, by simpa using hd⟩)
  · rintro ⟨h1, h2⟩
    refine .release _ (fun ⟨_, _, e⟩ => by cases e) fun p hp => ?_
    cases p with
    | tracker k =>
      obtain ⟨t, a', e, h | h⟩ := hp
      · cases h
      · cases h
        exact (ht k).mpr fun hk => h1 k hk t _ e rfl
    | comms b =>
      obtain rfl := hcross a b (.inr hp)
      rcases h2 with h2 | h2
      · exact (hc b).mpr ⟨h1, h2⟩
      · obtain ⟨sh, hsh, e, he, hd⟩ := (hq' b).mp hp
        rw [h2 sh hsh e he] at hd
        cases hd
    | queries b => exact hp.elim

/-! ### Histories -/

section
variable [Field F] [DecidableEq F]

/-- C92 for verifiers: when no handle is left after a history, everything is released. -/
def C92_statement (F C B : Type) [Field F] [DecidableEq F] : Prop :=
  ∀ (debug : Bool) (pcs : Pcs F C B) (H : Oracle F C) (ops : List (GOp F C B)) (o : Cell),
    Released (history (GOp.step debug pcs H) ⟨[], []⟩ ops).2.refs (heldBy []) o

/-- A map with a computed handle. -/
def HasDerived (s : VSt F C B) : Prop := ∃ e ∈ s.sh.comms, e.1 < s.own.idCounter ∧ isDerived e.2 = true

/-- A call that keeps a property of the tracker. -/
def Keeps {S α : Type} (P : S → Prop) (m : Act S α) : Prop := ∀ s, P s → P (m s).2

theorem Keeps.bind {S α β : Type} {P : S → Prop} {m : Act S α} {f : α → Act S β} (hm : Keeps P m) (hf : ∀ x, Keeps P (f x)) : Keeps P (m >>= f) := by
  intro s hs
  have h := hm s hs
  rw [Act.bind_run]
  revert h
  rcases m s with ⟨_ | x, s'⟩
  · exact fun h => h
  · exact fun h => hf x s' h

theorem Keeps.reads {S α : Type} {P : S → Prop} (f : S → Res α) : Keeps P (Act.reads f) := fun _ h => h

theorem hasDerived_insert (c : VComm F) : Keeps (HasDerived (F := F) (C := C) (B := B)) (VSt.trackVirtual c) := by
  rintro s ⟨e, he, hlt, hd⟩
  refine ⟨e, ?_, Nat.lt_succ_of_lt hlt, hd⟩
  refine List.mem_cons_of_mem _ (List.mem_filter.mpr ⟨he, ?_⟩)
  have : e.1 ≠ s.own.idCounter := by omega
  simpa using this

theorem hasDerived_new {c : VComm F} (hc : isDerived c = true) (s : VSt F C B) : HasDerived (VSt.trackVirtual c s).2 :=
  ⟨(s.own.idCounter, c), List.mem_cons_self, Nat.lt_succ_self _, hc⟩

theorem hasDerived_challengeU (H : Oracle F C) (l : String) : Keeps (HasDerived (F := F) (C := C) (B := B)) (VSt.challengeU H l) := by
  intro s hs
  unfold VSt.challengeU Act.expect VSt.challenge
  cases s.own.transcript.challenge H l with
  | error e => exact hs
  | ok r => exact hs

theorem hasDerived_foldSum (H : Oracle F C) (cs : List (Nat × F)) : ∀ agg v, Keeps (HasDerived (B := B)) (VSt.foldSumClaims H cs agg v) := by
  induction cs with
  | nil => intro agg v s hs; exact hs
  | cons c cs ih =>
    intro agg v
    exact (hasDerived_challengeU H _).bind fun ch => (hasDerived_insert _).bind fun p => (hasDerived_insert _).bind fun agg => ih _ _

theorem hasDerived_convertZero (H : Oracle F C) (nv : Nat) {s s' : VSt F C B} {u : Unit} (h : VSt.convertZero H nv s = (.ok u, s')) : HasDerived s' := by
  unfold VSt.convertZero at h
  obtain ⟨_, s1, _, h⟩ := Act.bind_eq_ok.mp h
  obtain ⟨_, s2, _, h⟩ := Act.bind_eq_ok.mp h
  obtain ⟨agg, s3, _, h⟩ := Act.bind_eq_ok.mp h
  obtain ⟨_, s4, _, h⟩ := Act.bind_eq_ok.mp h
  obtain ⟨eqId, s5, _, h⟩ := Act.bind_eq_ok.mp h
  obtain ⟨p, s6, h6, h⟩ := Act.bind_eq_ok.mp h
  have h6' := hasDerived_new (c := VComm.mul (F := F) agg eqId) rfl s5
  rw [show VSt.trackVirtual _ s5 = _ from h6] at h6'
  obtain rfl : s' = _ := (congrArg Prod.snd h).symm
  exact h6'

theorem hasDerived_verifyClaims (pcs : Pcs F C B) (H : Oracle F C) {s s' : VSt F C B} {u : Unit} (h : VSt.verifyClaims pcs H s = (.ok u, s')) :
    HasDerived s' := by
  unfold VSt.verifyClaims VSt.aggregate at h
  rw [Act.bind_assoc, Act.reads_bind, Act.bind_assoc] at h
  obtain ⟨_, s1, h1, h⟩ := Act.bind_eq_ok.mp h
  have hd := hasDerived_convertZero H _ h1
  have e := congrArg Prod.snd h
  rw [← show _ = s' from e]
  refine Keeps.bind (Keeps.bind (hasDerived_insert _) fun agg0 => Keeps.bind (Keeps.reads _) fun cl => hasDerived_foldSum H cl agg0 0) ?_ s1 hd
  intro agg
  refine Keeps.bind (fun s hs => ?_) fun sub => Keeps.bind (Keeps.reads _) fun ids => Keeps.bind (Keeps.reads _) fun comms =>
    Keeps.bind (Keeps.reads _) fun bp => Keeps.bind (fun s hs => ?_) fun _ s hs => hs
  · unfold VSt.checkSumcheck
    split <;> exact hs
  · unfold VSt.checkBatch
    split <;> exact hs

theorem hasDerived_call (debug : Bool) (pcs : Pcs F C B) (H : Oracle F C) {c : GMem.Call F C B} (hc : computes c = true) {s s' : VSt F C B}
    {r : GMem.Out F C} (h : plain debug pcs H c s = (.ok r, s')) : HasDerived s' := by
  have hmap : ∀ {α : Type} (f : α → GMem.Out F C) (m : Act (VSt F C B) α), ((f <$> m : Act _ _) s).2 = (m s).2 := by
    intro α f m
    show ((m >>= fun x => pure (f x) : Act _ _) s).2 = _
    rw [Act.bind_run]
    rcases m s with ⟨_ | _, _⟩ <;> rfl
  obtain rfl : _ = s' := congrArg Prod.snd h
  cases c
  case verifyClaims =>
    obtain ⟨u, s', h1, _⟩ := Act.bind_eq_ok.mp h
    refine (hmap _ _).symm ▸ ?_
    rw [h1]
    exact hasDerived_verifyClaims pcs H h1
  all_goals first
    | (simp [computes] at hc; done)
    | exact (hmap _ _).symm ▸ hasDerived_new rfl _

/-- A verifier that has computed a handle from another, or has verified its claims, is never released: its map refers to itself. -/
theorem C92_computed_kept (debug : Bool) (pcs : Pcs F C B) (H : Oracle F C) {k : Nat} {c : GMem.Call F C B} (hc : computes c = true)
    {mem mem' : VMem F C B} {r : GMem.Out F C} (h : GMem.run debug pcs H [] k c mem = (.ok r, mem')) :
    ∃ t a, mem'.trackers[k]? = some (t, a) ∧ ∀ handles, ¬ Released mem'.refs (heldBy handles) (.comms a) := by
  rw [C91_call] at h
  unfold VMem.on Act.within at h
  cases hs : mem.get k with
  | none => rw [hs] at h; simp at h
  | some s =>
    rw [hs] at h
    simp only [Prod.mk.injEq] at h
    obtain ⟨e, he, _, hd⟩ := hasDerived_call debug pcs H hc (s := s) (Prod.ext h.1 rfl)
    unfold VMem.get at hs
    cases hk : mem.trackers[k]? with
    | none => simp [hk] at hs
    | some x =>
      obtain ⟨t, a⟩ := x
      cases ha : mem.maps[a]? with
      | none => simp [hk, ha] at hs
      | some sh =>
        have hput := h.2
        unfold VMem.put at hput
        simp only [hk] at hput
        obtain ⟨hk', _⟩ := List.getElem?_eq_some_iff.mp hk
        obtain ⟨ha', _⟩ := List.getElem?_eq_some_iff.mp ha
        refine ⟨(plain debug pcs H c s).2.own, a, ?_, fun handles hr => ?_⟩
        · rw [← hput]; exact List.getElem?_set_self hk'
        · have := (((C92_verifier mem' handles).2.1 a).mp hr).2 (plain debug pcs H c s).2.sh (by rw [← hput]; exact List.getElem?_set_self ha') e he
          rw [hd] at this
          cases this

/-- C92 is false of verifiers. -/
theorem C92_violated : ¬ C92_statement F C B := by
  intro h
  let pcs : Pcs F C B := ⟨fun _ => .error .panic, fun _ _ _ _ => .error .panic, fun _ _ _ _ => .error .panic, fun _ _ tr => tr, fun _ _ _ tr => tr⟩
  have h := h false pcs (fun _ _ => 0) [.new, .call 0 (.trackVirtual fun _ => .ok 0), .call 0 (.mulScalar 0 1)] (.comms 0)
  have := (((C92_verifier _ []).2.1 0).mp h).2 _ rfl _ List.mem_cons_self
  cases this

theorem noDerived_call (debug : Bool) (pcs : Pcs F C B) (H : Oracle F C) {c : GMem.Call F C B} (hc : computes c = false) :
    Keeps (fun s : VSt F C B => ∀ e ∈ s.sh.comms, isDerived e.2 = false) (plain debug pcs H c) := by
  have hmap : ∀ {α : Type} (f : α → GMem.Out F C) {P : VSt F C B → Prop} {m : Act (VSt F C B) α}, Keeps P m → Keeps P (f <$> m : Act _ _) :=
    fun f P m hm => hm.bind fun _ s h => h
  have hins : ∀ (id : Nat) (c : VComm F), isDerived c = false →
      Keeps (fun s : VSt F C B => ∀ e ∈ s.sh.comms, isDerived e.2 = false) (VSt.insertComm id c) := by
    intro id c hc s hs e he
    rcases List.mem_cons.mp he with rfl | he
    · exact hc
    · exact hs e (List.mem_filter.mp he).1
  have hmat : ∀ c, Keeps (fun s : VSt F C B => ∀ e ∈ s.sh.comms, isDerived e.2 = false) (VSt.trackMatComm c) := fun c =>
    Keeps.bind (m := VSt.genId) (fun _ h => h) fun id => Keeps.bind (hins id _ rfl) fun _ => fun _ h => h
  cases c
  case trackMatComm c => exact hmap _ (hmat c)
  case trackVirtual f => exact hmap _ (Keeps.bind (m := VSt.genId) (fun _ h => h) fun id => Keeps.bind (hins id _ rfl) fun _ => fun _ h => h)
  case transferComm id =>
    refine hmap _ (Keeps.bind (Keeps.reads _) fun c => Keeps.bind ?_ fun newId => Keeps.bind ?_ fun _ => fun _ h => h)
    · intro s hs
      have := hmat c s hs
      unfold Act.expect
      revert this
      rcases VSt.trackMatComm c s with ⟨_ | _, _⟩ <;> exact fun h => h
    · intro s hs
      unfold Act.assert
      split <;> exact hs
  case challenge l =>
    refine hmap _ fun s hs => ?_
    unfold VSt.challenge
    split <;> exact hs
  all_goals first
    | (simp [computes] at hc; done)
    | exact hmap _ fun _ h => h

/-- What holds of verifiers: in a program that computes no handles from handles and verifies nothing, everything is released with the last handle. -/
theorem C92_only_inputs_partial (debug : Bool) (pcs : Pcs F C B) (H : Oracle F C) (ops : List (GOp F C B)) (ho : ∀ o ∈ ops, o.computes = false)
    (o : Cell) : Released (history (GOp.step debug pcs H) ⟨[], []⟩ ops).2.refs (heldBy []) o := by
  have key : ∀ (ops : List (GOp F C B)) (mem : VMem F C B), (∀ o ∈ ops, o.computes = false) →
      (∀ sh ∈ mem.maps, ∀ e ∈ sh.comms, isDerived e.2 = false) →
      ∀ sh ∈ (history (GOp.plainStep debug pcs H) mem ops).2.maps, ∀ e ∈ sh.comms, isDerived e.2 = false := by
    intro ops
    induction ops with
    | nil => intro mem _ h; exact h
    | cons o ops ih =>
      intro mem ho hm
      have hstep : ∀ sh ∈ (GOp.plainStep debug pcs H mem o).2.maps, ∀ e ∈ sh.comms, isDerived e.2 = false := by
        cases o with
        | new =>
          intro sh hsh
          rcases List.mem_append.mp hsh with h | h
          · exact hm sh h
          · obtain rfl := List.mem_singleton.mp h
            exact fun e he => (List.not_mem_nil he).elim
        | copy k =>
          simp only [GOp.plainStep, VMem.copy]
          cases idx mem.trackers k with
          | error e => exact hm
          | ok t => exact hm
        | call k c =>
          have hc : computes c = false := ho _ List.mem_cons_self
          simp only [GOp.plainStep, VMem.on, Act.within]
          cases hs : mem.get k with
          | none => exact hm
          | some s =>
            intro sh hsh
            unfold VMem.get at hs
            unfold VMem.put at hsh
            cases hk : mem.trackers[k]? with
            | none => simp [hk] at hs
            | some x =>
              obtain ⟨t, a⟩ := x
              cases ha : mem.maps[a]? with
              | none => simp [hk, ha] at hs
              | some sh0 =>
                simp only [hk, ha, Option.some.injEq] at hs
                subst hs
                simp only [hk] at hsh
                rcases List.mem_or_eq_of_mem_set hsh with h | rfl
                · exact hm sh h
                · exact noDerived_call debug pcs H hc _ (hm sh0 (List.mem_of_getElem? ha))
      unfold history
      revert hstep
      rcases GOp.plainStep debug pcs H mem o with ⟨(_ | _) | _, mem'⟩
      · exact fun h => ih mem' (fun o h' => ho o (List.mem_cons_of_mem _ h')) h
      · exact fun h => h
      · exact fun h => ih mem' (fun o h' => ho o (List.mem_cons_of_mem _ h')) h
  rw [C91_history]
  have hd := key ops ⟨[], []⟩ ho fun sh h => (List.not_mem_nil h).elim
  obtain ⟨h1, h2, h3⟩ := C92_verifier (history (GOp.plainStep debug pcs H) ⟨[], []⟩ ops).2 []
  cases o with
  | tracker k => exact (h1 k).mpr (by simp)
  | comms a => exact (h2 a).mpr ⟨fun _ h => (List.not_mem_nil h).elim, fun sh hsh => hd sh (List.mem_of_getElem? hsh)⟩
  | queries a => exact (h3 a).mpr ⟨fun _ h => (List.not_mem_nil h).elim, .inl fun sh hsh => hd sh (List.mem_of_getElem? hsh)⟩

end

/-- A program to which `C92_only_inputs_partial` applies: a committed column and its answers, a challenge and a claim, on a verifier and a copy. -/
example : ∀ o ∈ ([.new, .call 0 (.setProof GEx.proof), .call 0 (.transferComm 0), .call 0 .transferEvals, .copy 0, .call 1 (.eval 0 [2]),
    .call 1 (.challenge "c"), .call 1 (.addSumClaim 0 4)] : List (GOp (ZMod 7) (List (ZMod 7)) Unit)), o.computes = false := by
  intro o ho
  simp only [List.mem_cons, List.not_mem_nil, or_false] at ho
  rcases ho with rfl | rfl | rfl | rfl | rfl | rfl | rfl | rfl <;> rfl

/-- After the program of `GEx`, the tracker and its copy are released when dropped, their maps are not. -/
example : Released GEx.mem.refs (heldBy []) (.tracker 1) ∧ ¬ Released GEx.mem.refs (heldBy []) (.comms 0) ∧
    ¬ Released GEx.mem.refs (heldBy []) (.queries 0) := by
  obtain ⟨h1, h2, h3⟩ := C92_verifier GEx.mem []
  have hd : ∃ sh, GEx.mem.maps[0]? = some sh ∧ (sh.comms.any fun e => isDerived e.2) = true ∧ (sh.comms.any fun e => isCommitted e.2) = true :=
    ⟨_, rfl, by decide +kernel, by decide +kernel⟩
  obtain ⟨sh, hsh, hd, hq⟩ := hd
  obtain ⟨e, he, hd⟩ := List.any_eq_true.mp hd
  obtain ⟨e', he', hq⟩ := List.any_eq_true.mp hq
  refine ⟨(h1 1).mpr (by simp), fun h => ?_, fun h => ?_⟩
  · rw [((h2 0).mp h).2 sh hsh e he] at hd; cases hd
  · rcases ((h3 0).mp h).2 with h | h
    · rw [h sh hsh e he] at hd; cases hd
    · rw [h sh hsh e' he'] at hq; cases hq

/-- A prover with one table and its deep copy: the table is released only when both are dropped. -/
example : let t : PTracker (ZMod 7) (List (ZMod 7)) := { (PTracker.new : PTracker (ZMod 7) (List (ZMod 7))) with mats := [(0, ⟨0, ⟨1, [3, 5]⟩⟩)] }
    Released (PHeap.refs [t, t]) (heldByP [1]) (.tracker 0) ∧ ¬ Released (PHeap.refs [t, t]) (heldByP [1]) (.table 0) ∧
      Released (PHeap.refs [t, t]) (heldByP []) (.table 0) := by
  intro t
  refine ⟨((C92_prover [t, t] [1]).1 0).mpr (by simp), fun h => ?_, ((C92_prover [t, t] []).2 0).mpr fun _ h => (List.not_mem_nil h).elim⟩
  exact ((C92_prover [t, t] [1]).2 0).mp h 1 (by simp) t rfl _ List.mem_cons_self rfl

end Zksql
