import Verif.Lemmas.Guards
import Verif.Lemmas.Memory
import Verif.Props.ProverTracker
/-!
C91: borrows.  No call on a verifier, in any history, fails because of a borrow that is still open; and which calls a function given to
`track_virtual_comm` may make while it is being evaluated.
-/
namespace Zksql
open Spec GMem
variable {F C B : Type} [Field F]

theorem on_map {α β : Type} (k : Nat) (f : α → β) (m : Act (VSt F C B) α) : VMem.on k (f <$> m) = f <$> VMem.on k m := by
  funext mem
  show Act.within _ _ (m >>= fun x => pure (f x)) mem = (Act.within _ _ m >>= fun x => pure (f x) : Act _ _) mem
  rw [Act.bind_run]
  unfold Act.within
  cases mem.get k with
  | none => rfl
  | some s =>
    simp only [Act.bind_run]
    rcases m s with ⟨_ | _, _⟩ <;> rfl

theorem map_run {S α β : Type} (f : α → β) {m m' : Act S α} {s : S} (h : m s = m' s) : (f <$> m) s = (f <$> m') s := by
  show (m >>= fun x => pure (f x) : Act _ _) s = (m' >>= fun x => pure (f x) : Act _ _) s
  rw [Act.bind_run, Act.bind_run, h]

theorem guarded_eq {α β : Type} {k : Nat} {mt : Bool} {g : Guards} {m : Nat → Guards → Act (VSt F C B) α} {m' : Act (VSt F C B) α} (f : α → β)
    (h : g.allows (.tracker k) mt = true) {mem : VMem F C B} (hm : ∀ t a, mem.trackers[k]? = some (t, a) → m a ((.tracker k, mt) :: g) = m') :
    (f <$> GMem.on k mt g m) mem = VMem.on k (f <$> m') mem := by
  rw [on_map]
  apply map_run
  refine (congrFun (borrow_ok h _) mem).trans ?_
  cases hk : mem.trackers[k]? with
  | none => simp only [VMem.on, Act.within, VMem.get, hk]
  | some e =>
    obtain ⟨t, a⟩ := e
    simp only
    rw [hm t a hk]

theorem guarded_panic {α β : Type} {k : Nat} {g : Guards} (m : Nat → Guards → Act (VSt F C B) α) (f : α → β)
    (h : g.allows (.tracker k) true = false) (mem : VMem F C B) : (f <$> GMem.on k true g m) mem = (.error .panic, mem) := by
  refine map_run f (m' := Act.lift (.error .panic)) ?_
  exact congrFun (borrow_panic h _) mem

theorem guarded_inner' {α : Type} {k : Nat} {mt : Bool} {g : Guards} {m : Nat → Guards → Act (VSt F C B) α} {mem : VMem F C B}
    {t : VTracker F C B} {a : Nat} (hk : mem.trackers[k]? = some (t, a)) (hm : ∀ s, (m a ((.tracker k, mt) :: g) s).1 = .error .panic) :
    (GMem.on k mt g m mem).1 = .error .panic := by
  cases h : g.allows (.tracker k) mt with
  | false => exact congrArg Prod.fst (congrFun (borrow_panic h _) mem)
  | true =>
    refine (congrArg Prod.fst (congrFun (borrow_ok h _) mem)).trans ?_
    simp only [hk, VMem.on, Act.within]
    cases mem.get k with
    | none => rfl
    | some s => exact hm s

theorem guarded_inner {α β : Type} {k : Nat} {mt : Bool} {g : Guards} {m : Nat → Guards → Act (VSt F C B) α} (f : α → β) {mem : VMem F C B}
    {t : VTracker F C B} {a : Nat} (hk : mem.trackers[k]? = some (t, a)) (hm : ∀ s, (m a ((.tracker k, mt) :: g) s).1 = .error .panic) :
    ((f <$> GMem.on k mt g m) mem).1 = .error .panic :=
  GTracker.act_bind_panic (m := GMem.on k mt g m) (guarded_inner' hk hm) _

theorem put_get_self {k : Nat} {mem : VMem F C B} {s : VSt F C B} (h : mem.get k = some s) : mem.put k s = mem := by
  unfold VMem.get at h
  unfold VMem.put
  cases hk : mem.trackers[k]? with
  | none => rfl
  | some e =>
    obtain ⟨t, a⟩ := e
    rw [hk] at h
    cases ha : mem.maps[a]? with
    | none => simp [ha] at h
    | some sh =>
      simp only [ha, Option.some.injEq] at h
      subst h
      obtain ⟨ts, ms⟩ := mem
      simp only at hk ha ⊢
      obtain ⟨h1, h1'⟩ := List.getElem?_eq_some_iff.mp hk
      obtain ⟨h2, h2'⟩ := List.getElem?_eq_some_iff.mp ha
      rw [← h1', ← h2', List.set_getElem_self, List.set_getElem_self]

theorem on_reads {α : Type} (k : Nat) (f : VSt F C B → Res α) (mem : VMem F C B) :
    VMem.on k (Act.reads f) mem = (match mem.get k with | none => .error .panic | some s => f s, mem) := by
  unfold VMem.on Act.within
  cases h : mem.get k with
  | none => rfl
  | some s => simp only [Act.reads_run, put_get_self h]

theorem guarded_on {α : Type} {k : Nat} {mt : Bool} {g : Guards} {m : Nat → Guards → Act (VSt F C B) α} {m' : Act (VSt F C B) α}
    (h : g.allows (.tracker k) mt = true) {mem : VMem F C B} (hm : ∀ t a, mem.trackers[k]? = some (t, a) → m a ((.tracker k, mt) :: g) = m') :
    GMem.on k mt g m mem = VMem.on k m' mem := by
  have h := guarded_eq id h hm
  rw [on_map] at h
  have e : ∀ x : Act (VMem F C B) α, (id <$> x) = x := fun x => by
    funext s
    show (x >>= fun y => pure (id y) : Act _ _) s = _
    rw [Act.bind_run]
    rcases x s with ⟨_ | _, _⟩ <;> rfl
  rwa [e, e] at h

theorem transferComm_eq (debug : Bool) {k : Nat} {g : Guards} (hg : OnlyShared g) (ht : Closed g (.tracker k)) {mem : VMem F C B}
    (hc : ∀ t a, mem.trackers[k]? = some (t, a) → Closed g (.comms a)) (id : Nat) :
    GMem.transferComm debug k g id mem = VMem.on k (VSt.transferComm debug id) mem := by
  unfold GMem.transferComm VSt.transferComm
  rw [Act.bind_run, guarded_on (hg.allows _) (fun _ _ _ => rfl), on_reads]
  cases hs : mem.get k with
  | none => simp only [VMem.on, Act.within, hs]
  | some s =>
    cases hl : s.own.proof.comms.lookup id with
    | none =>
      simp only [VMem.on, Act.within, hs, Act.bind_run, Act.reads_run, hl, unwrap]
      rw [put_get_self hs]
    | some c =>
      simp only [hl, unwrap]
      refine (guarded_on (m' := Act.expect (VSt.trackMatComm (F := F) (B := B) c) >>= fun newId => Act.assert (debug = true → id = newId) >>= fun _ => pure newId)
        (ht.allows true) ?_).trans ?_
      · intro t a hk
        rw [GTracker.trackMatComm_eq ((hc t a hk).cons (by simp) true)]
      · simp only [VMem.on, Act.within, hs, Act.bind_run, Act.reads_run, hl]

section
variable [DecidableEq F] (debug : Bool) (pcs : Pcs F C B) (H : Oracle F C)

/-- While only shared borrows are open, whatever they are of, the calls that only read return what they return when none is open. -/
theorem C91_reads {g : Guards} (hg : OnlyShared g) (k : Nat) {c : Call F C B} (hc : readsOnly c = true) (mem : VMem F C B) :
    GMem.run debug pcs H g k c mem = VMem.on k (plain debug pcs H c) mem := by
  cases c
  case getMatComm id => exact guarded_eq _ (hg.allows _) fun _ _ _ => rfl
  case claimedSum id => exact guarded_eq _ (hg.allows _) fun _ _ _ => rfl
  case eval id pt => exact guarded_eq _ (hg.allows _) fun _ a _ => GTracker.evalVirtual_eq a (hg.cons _) id pt
  all_goals exact absurd hc (by simp [readsOnly])

/-- Calls on another tracker: it needs the maps to itself only to make handles, and to store answers. -/
theorem C91_other {g : Guards} (hg : OnlyShared g) {k : Nat} (hk : Closed g (.tracker k)) {mem : VMem F C B} (c : Call F C B)
    (h1 : makesHandles c = true → ∀ t a, mem.trackers[k]? = some (t, a) → Closed g (.comms a))
    (h2 : storesAnswers c = true → ∀ t a, mem.trackers[k]? = some (t, a) → Closed g (.queries a)) :
    GMem.run debug pcs H g k c mem = VMem.on k (plain debug pcs H c) mem := by
  cases c
  case getMatComm id => exact C91_reads debug pcs H hg k rfl mem
  case claimedSum id => exact C91_reads debug pcs H hg k rfl mem
  case eval id pt => exact C91_reads debug pcs H hg k rfl mem
  case transferComm id =>
    rw [plain, on_map]
    exact map_run _ (transferComm_eq debug hg hk (h1 rfl) id)
  case transferEvals => exact guarded_eq _ (hk.allows _) fun t a e => GTracker.transferEvals_eq ((h2 rfl t a e).cons (by simp) true)
  case trackMatComm c => exact guarded_eq _ (hk.allows _) fun t a e => GTracker.trackMatComm_eq ((h1 rfl t a e).cons (by simp) true) c
  case addScalar i c => exact guarded_eq _ (hk.allows _) fun t a e => GTracker.addScalar_eq ((h1 rfl t a e).cons (by simp) true) i c
  case verifyClaims => exact guarded_eq _ (hk.allows _) fun t a e => GTracker.verifyClaims_eq pcs H ((h1 rfl t a e).cons (by simp) true)
  all_goals first
    | exact guarded_eq _ (hk.allows _) fun t a e => GTracker.trackVirtual_eq ((h1 rfl t a e).cons (by simp) true) _
    | exact guarded_eq _ (hk.allows _) fun _ _ _ => rfl

/-- With no borrow open, every call does what it does without cells. -/
theorem C91_call (k : Nat) (c : Call F C B) (mem : VMem F C B) : GMem.run debug pcs H [] k c mem = VMem.on k (plain debug pcs H c) mem :=
  C91_other debug pcs H (fun _ h => (List.not_mem_nil h).elim) (fun _ h => (List.not_mem_nil h).elim) c
    (fun _ _ _ _ _ h => (List.not_mem_nil h).elim) fun _ _ _ _ _ h => (List.not_mem_nil h).elim

/-- So does every history: no step of it panics because of a borrow, and what it returns and leaves in memory is what it would without cells. -/
theorem C91_history (mem : VMem F C B) (ops : List (GOp F C B)) :
    history (GOp.step debug pcs H) mem ops = history (GOp.plainStep debug pcs H) mem ops := by
  have hs : GOp.step debug pcs H = GOp.plainStep debug pcs H := by
    funext mem o
    cases o with
    | new => rfl
    | copy k =>
      show (GMem.copy [] k >>= fun _ => pure Out.none : Act (VMem F C B) (Out F C)) mem = _
      have hb : GMem.copy [] k mem = match VMem.copy k mem with
          | .ok mem' => (.ok (), mem')
          | .error e => (.error e, mem) := congrFun (borrow_ok rfl _) mem
      rw [Act.bind_run, hb]
      simp only [GOp.plainStep]
      cases VMem.copy k mem <;> rfl
    | call k c => exact C91_call debug pcs H k c mem
  rw [hs]

/-- A function given to `track_virtual_comm` is called with shared borrows open, among them one of the tracker whose handle is being evaluated and one of
its map; nothing else is known to it, and nothing else matters: two ways `u` and `u'` of calling such functions that agree for these borrows give the
same evaluation. -/
theorem C91_inside (u u' : Guards → (List F → Res F) → List F → Act (VSt F C B) F) {g0 : Guards} (h0 : OnlyShared g0) (k : Nat) (mem : VMem F C B)
    (h : ∀ t a, mem.trackers[k]? = some (t, a) → ∀ g, OnlyShared g → (.tracker k, false) ∈ g → (.comms a, false) ∈ g → ∀ f pt, u g f pt = u' g f pt)
    (id : Nat) (pt : List F) :
    GMem.on k false g0 (fun a g => GTracker.evalWith u a g id pt) mem = GMem.on k false g0 (fun a g => GTracker.evalWith u' a g id pt) mem := by
  refine (congrFun (borrow_ok (h0.allows _) _) mem).trans (Eq.trans ?_ (congrFun (borrow_ok (h0.allows _) _) mem).symm)
  cases hk : mem.trackers[k]? with
  | none => rfl
  | some e =>
    obtain ⟨t, a⟩ := e
    simp only
    rw [GTracker.evalWith_user u u' a (h0.cons _) (fun g hg hm hs => h t a hk g hg (hs List.mem_cons_self) hm) id pt]

/-- Such a function cannot change its tracker: any call that does more than read panics, and changes nothing. -/
theorem C91_inside_writes {g : Guards} (hg : OnlyShared g) {k : Nat} (hk : (.tracker k, false) ∈ g) {c : Call F C B} (hc : readsOnly c = false)
    (mem : VMem F C B) : GMem.run debug pcs H g k c mem = (.error .panic, mem) := by
  have hp := not_allows hk
  cases c
  case getMatComm id => simp [readsOnly] at hc
  case claimedSum id => simp [readsOnly] at hc
  case eval id pt => simp [readsOnly] at hc
  case transferComm id =>
    refine map_run _ (m' := Act.lift (.error .panic)) ?_
    unfold GMem.transferComm
    rw [Act.bind_run, guarded_on (hg.allows _) (fun _ _ _ => rfl), on_reads]
    cases hs : mem.get k with
    | none => rfl
    | some s =>
      cases hl : s.own.proof.comms.lookup id with
      | none => simp only [hl, unwrap]; rfl
      | some c => simp only [hl, unwrap]; exact congrFun (borrow_panic hp _) mem
  all_goals exact guarded_panic _ _ hp mem

/-- Nor can it make handles with a deep copy of its tracker, because copies share the map. -/
theorem C91_inside_copies {g : Guards} (hg : OnlyShared g) {k a : Nat} {t : VTracker F C B} {mem : VMem F C B} (hk : mem.trackers[k]? = some (t, a))
    (ha : (.comms a, false) ∈ g) {c : Call F C B} (hc : makesHandles c = true) : (GMem.run debug pcs H g k c mem).1 = .error .panic := by
  have ha' : ∀ mt, (Cell.comms a, false) ∈ (Cell.tracker k, mt) :: g := fun mt => List.mem_cons_of_mem _ ha
  cases c
  case trackMatComm c => exact guarded_inner _ hk fun s => GTracker.trackMatComm_panic (ha' _) _ _
  case addScalar i c => exact guarded_inner _ hk fun s => GTracker.addScalar_panic (ha' _) _ _ _
  case verifyClaims => exact guarded_inner _ hk fun s => GTracker.verifyClaims_panic pcs H (ha' _) _
  case transferComm id =>
    refine GTracker.act_bind_panic (m := GMem.transferComm debug k g id) ?_ _
    unfold GMem.transferComm
    rw [Act.bind_run, guarded_on (hg.allows _) (fun _ _ _ => rfl), on_reads]
    cases hs : mem.get k with
    | none => rfl
    | some s =>
      cases hl : s.own.proof.comms.lookup id with
      | none => simp only [hl, unwrap]
      | some c =>
        simp only [hl, unwrap]
        refine guarded_inner' hk fun s => GTracker.act_bind_panic ?_ _
        unfold Act.expect
        have h := GTracker.trackMatComm_panic (F := F) (B := B) (ha' true) c s
        rcases hm : GTracker.trackMatComm a ((Cell.tracker k, true) :: g) c s with ⟨r, s'⟩
        rw [hm] at h
        obtain rfl : r = .error .panic := h
        rfl
  all_goals first
    | exact guarded_inner _ hk fun s => GTracker.trackVirtual_panic (ha' _) _ _
    | exact absurd hc (by simp [makesHandles])

end

/-- It can also make a deep copy of any tracker, with the same outcome as when no borrow is open. -/
theorem C91_inside_copy {g : Guards} (hg : OnlyShared g) (k : Nat) (mem : VMem F C B) : GMem.copy g k mem = GMem.copy [] k mem := by
  have h : ∀ {g : Guards}, OnlyShared g → GMem.copy g k mem = match VMem.copy k mem with
      | .ok mem' => (.ok (), mem')
      | .error e => (.error e, mem) := fun hg => congrFun (borrow_ok (hg.allows _) _) mem
  rw [h hg, h fun _ h => (List.not_mem_nil h).elim]

theorem not_allows_mut {g : Guards} {c : Cell} (mt : Bool) (h : (c, true) ∈ g) : g.allows c mt = false := by
  unfold Guards.allows
  rw [List.all_eq_false]
  exact ⟨_, h, by simp⟩

/-- While a tracker is borrowed for writing, no call on it returns, not even one that only reads, and none changes anything. -/
theorem C91_exclusive [DecidableEq F] (debug : Bool) (pcs : Pcs F C B) (H : Oracle F C) {g : Guards} {k : Nat} (hk : (.tracker k, true) ∈ g) (c : Call F C B)
    (mem : VMem F C B) : GMem.run debug pcs H g k c mem = (.error .panic, mem) ∧ GMem.copy g k mem = (.error .panic, mem) := by
  have gp : ∀ {α β : Type} (mt : Bool) (m : Nat → Guards → Act (VSt F C B) α) (f : α → β), (f <$> GMem.on k mt g m) mem = (.error .panic, mem) := by
    intro α β mt m f
    refine map_run f (m' := Act.lift (.error .panic)) ?_
    exact congrFun (borrow_panic (not_allows_mut mt hk) _) mem
  constructor
  · cases c
    case transferComm id =>
      refine map_run _ (m' := Act.lift (.error .panic)) ?_
      unfold GMem.transferComm
      exact Act.bind_error (congrFun (borrow_panic (not_allows_mut false hk) _) mem)
    all_goals exact gp _ _ _
  · exact congrFun (borrow_panic (not_allows_mut false hk) _) mem

/-! ### A program: two handles, their sum, a deep copy, evaluations -/
namespace GEx
open Spec

/-- The proof sent: one committed polynomial, and its value `4` at the point `[2]`. -/
def proof : CompiledProof (ZMod 7) (List (ZMod 7)) Unit := { (CompiledProof.default : CompiledProof (ZMod 7) (List (ZMod 7)) Unit) with comms := [(0, [5])], queryMap := [((0, [2]), 4)] }

/-- Every step uses a cell; steps 9 and 10 evaluate sums, which borrow the map while it is borrowed. -/
def ops : List (GOp (ZMod 7) (List (ZMod 7)) Unit) :=
  [.new, .call 0 (.setProof proof), .call 0 (.transferComm 0), .call 0 (.trackVirtual fun pt => .ok pt.sum), .call 0 (.addComms 0 1),
   .call 0 .transferEvals, .call 0 (.addScalar 2 5), .copy 0, .call 0 (.eval 2 [2]), .call 1 (.eval 4 [2]), .call 1 (.mulComms 4 0),
   .call 1 (.eval 5 [2]), .call 1 (.eval 2 [2])]

/-- A stand-in for the commitment scheme, not used here. -/
def pcs : Pcs (ZMod 7) (List (ZMod 7)) Unit := ⟨fun _ => .error .panic, fun _ _ _ _ => .error .panic, fun _ _ _ _ => .error .panic, fun _ _ tr => tr, fun _ _ _ tr => tr⟩

/-- What was returned: nothing at all after a panic, or an identifier, or a field element. -/
def show' : Res (Out (ZMod 7) (List (ZMod 7))) → Option (Option (Nat ⊕ ZMod 7))
  | .ok (.id i) => some (some (.inl i))
  | .ok (.elem x) => some (some (.inr x))
  | .ok _ => some none
  | .error _ => none

/-- Memory after the program. -/
def mem : VMem (ZMod 7) (List (ZMod 7)) Unit := (history (GOp.step true pcs PEx.orc) ⟨[], []⟩ ops).2

end GEx

/-- All steps succeed; the values are those of the sums. -/
example : (history (GOp.step true GEx.pcs PEx.orc) ⟨[], []⟩ GEx.ops).1.map GEx.show' =
    [some none, some none, some (some (.inl 0)), some (some (.inl 1)), some (some (.inl 2)), some none, some (some (.inl 4)), some none,
      some (some (.inr 6)), some (some (.inr 4)), some (some (.inl 5)), some (some (.inr 2)), some (some (.inr 6))] := by
  decide +kernel

/-- The borrows open while the function of handle 1 is called: of tracker 0, and of its map, twice.  Reading the sum is then possible, making a handle
is not, neither on tracker 0 nor on its copy, tracker 1; a challenge can be drawn from tracker 1 but not from tracker 0. -/
example : let g : Guards := [(.comms 0, false), (.comms 0, false), (.tracker 0, false)]
    let r := fun k c => GEx.show' (GMem.run true GEx.pcs PEx.orc g k c GEx.mem).1
    OnlyShared g ∧ r 0 (.eval 2 [2]) = some (some (.inr 6)) ∧ r 0 (.addComms 0 1) = none ∧ r 1 (.addComms 0 1) = none ∧ r 0 (.challenge "c") = none ∧
      r 1 (.challenge "c") = some (some (.inr 3)) := by
  refine ⟨by intro x hx; simp at hx; rcases hx with rfl | rfl <;> rfl, ?_⟩
  decide +kernel

end Zksql
