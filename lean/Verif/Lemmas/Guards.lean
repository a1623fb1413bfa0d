import Verif.Spec.Guards
/-!
Borrows that succeed can be left out.
-/
namespace Zksql
open Spec
variable {F C B : Type} [Field F]

theorem Spec.OnlyShared.allows {g : Guards} (hg : OnlyShared g) (c : Cell) : g.allows c false = true := by
  unfold Guards.allows
  rw [List.all_eq_true]
  intro x hx
  simp [hg x hx]

theorem Spec.Closed.allows {g : Guards} {c : Cell} (hg : Closed g c) (mt : Bool) : g.allows c mt = true := by
  unfold Guards.allows
  rw [List.all_eq_true]
  intro x hx
  simp [hg x hx]

theorem not_allows {g : Guards} {c : Cell} {b : Bool} (h : (c, b) ∈ g) : g.allows c true = false := by
  unfold Guards.allows
  rw [List.all_eq_false]
  exact ⟨_, h, by simp⟩

theorem Spec.OnlyShared.cons {g : Guards} (hg : OnlyShared g) (c : Cell) : OnlyShared ((c, false) :: g) := by
  intro x hx
  rcases List.mem_cons.mp hx with rfl | hx
  · rfl
  · exact hg x hx

theorem Spec.Closed.cons {g : Guards} {c d : Cell} (hg : Closed g c) (hd : d ≠ c) (b : Bool) : Closed ((d, b) :: g) c := by
  intro x hx
  rcases List.mem_cons.mp hx with rfl | hx
  · exact hd
  · exact hg x hx

theorem borrow_ok {S α : Type} {g : Guards} {c : Cell} {mt : Bool} (h : g.allows c mt = true) (body : Guards → Act S α) :
    g.borrow c mt body = body ((c, mt) :: g) := by unfold Guards.borrow; rw [if_pos h]

theorem borrow_panic {S α : Type} {g : Guards} {c : Cell} {mt : Bool} (h : g.allows c mt = false) (body : Guards → Act S α) :
    g.borrow c mt body = Act.lift (.error .panic) := by
  unfold Guards.borrow; rw [if_neg (by simp [h])]

namespace GTracker

section
variable {a : Nat} {g : Guards}

theorem insertComm_eq (h : Closed g (.comms a)) (id : Nat) (c : VComm F) : insertComm (C := C) (B := B) a g id c = VSt.insertComm id c :=
  borrow_ok (h.allows true) _

theorem trackMatComm_eq (h : Closed g (.comms a)) (c : C) : trackMatComm (F := F) (B := B) a g c = VSt.trackMatComm c := by
  unfold trackMatComm VSt.trackMatComm
  simp only [insertComm_eq h]
  rfl

theorem trackVirtual_eq (h : Closed g (.comms a)) (c : VComm F) : trackVirtual (C := C) (B := B) a g c = VSt.trackVirtual c := by
  unfold trackVirtual VSt.trackVirtual
  simp only [insertComm_eq h]

theorem addScalar_eq (h : Closed g (.comms a)) (i : Nat) (c : F) : addScalar (C := C) (B := B) a g i c = VSt.addScalar i c := by
  unfold addScalar VSt.addScalar
  simp only [trackVirtual_eq h]

theorem foldZeroClaims_eq (H : Oracle F C) (h : Closed g (.comms a)) (cs : List Nat) : ∀ agg,
    foldZeroClaims (B := B) H a g cs agg = VSt.foldZeroClaims H cs agg := by
  induction cs with
  | nil => intro agg; rfl
  | cons c cs ih =>
    intro agg
    unfold foldZeroClaims VSt.foldZeroClaims VSt.mulScalar VSt.addComms
    simp only [trackVirtual_eq h, ih]

theorem foldSumClaims_eq (H : Oracle F C) (h : Closed g (.comms a)) (cs : List (Nat × F)) : ∀ agg s,
    foldSumClaims (B := B) H a g cs agg s = VSt.foldSumClaims H cs agg s := by
  induction cs with
  | nil => intro agg s; rfl
  | cons c cs ih =>
    intro agg s
    unfold foldSumClaims VSt.foldSumClaims VSt.mulScalar VSt.addComms
    simp only [trackVirtual_eq h, ih]

theorem convertZero_eq (H : Oracle F C) (h : Closed g (.comms a)) (nv : Nat) : convertZero (B := B) H a g nv = VSt.convertZero H nv := by
  unfold convertZero VSt.convertZero VSt.mulComms
  simp only [trackVirtual_eq h, foldZeroClaims_eq H h]

theorem verifyClaims_eq [DecidableEq F] (pcs : Pcs F C B) (H : Oracle F C) (h : Closed g (.comms a)) :
    verifyClaims pcs H a g = VSt.verifyClaims pcs H := by
  unfold verifyClaims VSt.verifyClaims VSt.aggregate
  simp only [trackVirtual_eq h, foldSumClaims_eq H h, convertZero_eq H h, Act.bind_assoc]

theorem transferEvals_eq [DecidableEq F] (h : Closed g (.queries a)) : transferEvals (F := F) (C := C) (B := B) a g = VSt.transferEvals :=
  borrow_ok (h.allows true) _

end

/-- Evaluation opens shared borrows only. -/
theorem callC_eq [DecidableEq F] (a : Nat) (s : VSt F C B) (n : Nat) : ∀ (id : Nat) (c : VComm F) (pt : List F) (g : Guards), OnlyShared g →
    s.sh.comms.lookup id = some c →
    callC (fun _ f pt => Act.lift (f pt)) a g n c pt s = (VSt.evalC s.sh.comms (VSt.queryAns s.sh) n id pt, s) := by
  induction n with
  | zero => intros; rfl
  | succ n ih =>
    intro id c pt g hg hc
    have hcall : ∀ g', OnlyShared g' → ∀ i pt,
        (Act.reads (fun s : VSt F C B => unwrap (s.sh.comms.lookup i)) >>= fun c => callC (fun _ f pt => Act.lift (f pt)) a g' n c pt) s
        = (VSt.evalC s.sh.comms (VSt.queryAns s.sh) n i pt, s) := by
      intro g' hg' i pt
      rw [Act.bind_run, Act.reads_run]
      cases hl : s.sh.comms.lookup i with
      | none =>
        cases n with
        | zero => rfl
        | succ n => unfold VSt.evalC; rw [hl]; rfl
      | some c => exact ih i c pt g' hg' hl
    have hb : ∀ body : Guards → Act (VSt F C B) F, g.borrow (.comms a) false body = body ((.comms a, false) :: g) :=
      fun body => borrow_ok (hg.allows _) body
    have hg' := hg.cons (.comms a)
    have hstep : ∀ (x : Act (VSt F C B) F) (r : Res F) (f : F → Act (VSt F C B) F) (q : F → Res F), x s = (r, s) → (∀ y, f y s = (q y, s)) →
        (x >>= f) s = (r >>= q, s) := by
      intro x r f q hx hf
      rw [Act.bind_run, hx]
      cases r with
      | error e => rfl
      | ok y => exact hf y
    have hmiss : ∀ i k pt pt', (Act.reads (fun s : VSt F C B => unwrap (s.sh.comms.lookup i)) >>= fun _ =>
        if pt.length < k then Act.lift (.error .panic) else
          Act.reads (fun s : VSt F C B => unwrap (s.sh.comms.lookup i)) >>= fun c =>
            callC (fun _ f pt => Act.lift (f pt)) a ((.comms a, false) :: g) n c pt') s
        = (if (pt : List F).length < k then .error .panic else VSt.evalC s.sh.comms (VSt.queryAns s.sh) n i pt', s) := by
      intro i k pt pt'
      by_cases hk : pt.length < k
      · rw [Act.bind_run, Act.reads_run, if_pos hk, if_pos hk]
        cases s.sh.comms.lookup i <;> rfl
      · rw [if_neg hk, if_neg hk, ← hcall _ hg' i pt']
        rw [Act.bind_run, Act.reads_run]
        cases hl : s.sh.comms.lookup i with
        | none => rw [Act.bind_run, Act.reads_run, hl]; rfl
        | some c => rfl
    unfold VSt.evalC
    rw [hc]
    cases c with
    | query i =>
      unfold callC
      simp only [borrow_ok (hg.allows _)]
      rfl
    | fn f => rfl
    | add i j =>
      unfold callC
      simp only [hb]
      exact hstep _ _ _ _ (hcall _ hg' i pt) fun x => hstep _ _ _ _ (hcall _ hg' j pt) fun y => rfl
    | sub i j =>
      unfold callC
      simp only [hb]
      exact hstep _ _ _ _ (hcall _ hg' i pt) fun x => hstep _ _ _ _ (hcall _ hg' j pt) fun y => rfl
    | mul i j =>
      unfold callC
      simp only [hb]
      exact hstep _ _ _ _ (hcall _ hg' i pt) fun x => hstep _ _ _ _ (hcall _ hg' j pt) fun y => rfl
    | addScalar i c =>
      unfold callC
      simp only [hb]
      exact hstep _ _ _ _ (hcall _ hg' i pt) fun x => rfl
    | mulScalar i c =>
      unfold callC
      simp only [hb]
      exact hstep _ _ _ _ (hcall _ hg' i pt) fun x => rfl
    | incFront i k =>
      unfold callC
      simp only [hb]
      exact hmiss i k pt (pt.drop k)
    | incBack i k =>
      unfold callC
      simp only [hb]
      exact hmiss i k pt (pt.take k)

theorem evalVirtual_eq [DecidableEq F] (a : Nat) {g : Guards} (hg : OnlyShared g) (id : Nat) (pt : List F) :
    evalVirtual (C := C) (B := B) a g id pt = Act.reads fun s => VSt.evalVirtual s.sh id pt := by
  funext s
  unfold evalVirtual evalWith
  rw [borrow_ok (hg.allows _), Act.bind_run, Act.reads_run, Act.reads_run]
  unfold VSt.evalVirtual
  cases hl : s.sh.comms.lookup id with
  | none => unfold VSt.evalC; rw [hl]; rfl
  | some c => exact callC_eq a s (id + 1) id c pt _ (hg.cons _) hl

/-- A function given to `track_virtual_comm` is called with shared borrows only, and with those of the map open. -/
theorem callC_user [DecidableEq F] (u u' : Guards → (List F → Res F) → List F → Act (VSt F C B) F) (a : Nat) (g0 : Guards)
    (h : ∀ g, OnlyShared g → (.comms a, false) ∈ g → g0 ⊆ g → ∀ f pt, u g f pt = u' g f pt) (n : Nat) :
    ∀ (c : VComm F) (pt : List F) (g : Guards), OnlyShared g → (.comms a, false) ∈ g → g0 ⊆ g → callC u a g n c pt = callC u' a g n c pt := by
  induction n with
  | zero => intros; rfl
  | succ n ih =>
    intro c pt g hg hm hs
    have ih' : ∀ c pt, callC u a ((.comms a, false) :: g) n c pt = callC u' a ((.comms a, false) :: g) n c pt := fun c pt =>
      ih c pt _ (hg.cons _) List.mem_cons_self (fun x hx => List.mem_cons_of_mem _ (hs hx))
    cases c <;> unfold callC
    case fn f => exact h g hg hm hs f pt
    all_goals first
      | rfl
      | (simp only []
         rw [borrow_ok (hg.allows _), borrow_ok (hg.allows _)]
         simp only [ih'])

theorem evalWith_user [DecidableEq F] (u u' : Guards → (List F → Res F) → List F → Act (VSt F C B) F) (a : Nat) {g0 : Guards} (h0 : OnlyShared g0)
    (h : ∀ g, OnlyShared g → (.comms a, false) ∈ g → g0 ⊆ g → ∀ f pt, u g f pt = u' g f pt) (id : Nat) (pt : List F) :
    evalWith u a g0 id pt = evalWith u' a g0 id pt := by
  unfold evalWith
  rw [borrow_ok (h0.allows _), borrow_ok (h0.allows _)]
  simp only [callC_user u u' a g0 h _ _ _ _ (h0.cons _) List.mem_cons_self (List.subset_cons_self _ _)]

/-! ### Refusals -/

theorem trackVirtual_panic {a : Nat} {g : Guards} {b : Bool} (h : (.comms a, b) ∈ g) (c : VComm F) (s : VSt F C B) :
    (trackVirtual a g c s).1 = .error .panic := by
  unfold trackVirtual insertComm
  simp only [borrow_panic (not_allows h)]
  rfl

theorem trackMatComm_panic {a : Nat} {g : Guards} {b : Bool} (h : (.comms a, b) ∈ g) (c : C) (s : VSt F C B) :
    (trackMatComm a g c s).1 = .error .panic := by
  unfold trackMatComm insertComm
  simp only [borrow_panic (not_allows h)]
  rfl

theorem act_bind_panic {S α β : Type} {m : Act S α} {s : S} (h : (m s).1 = .error .panic) (f : α → Act S β) : ((m >>= f) s).1 = .error .panic := by
  rw [Act.bind_run]
  rcases hm : m s with ⟨r, s'⟩
  rw [hm] at h
  obtain rfl : r = .error .panic := h
  rfl

theorem addScalar_panic {a : Nat} {g : Guards} {b : Bool} (h : (.comms a, b) ∈ g) (i : Nat) (c : F) (s : VSt F C B) :
    (addScalar a g i c s).1 = .error .panic := by
  unfold addScalar
  exact trackVirtual_panic h _ _

theorem verifyClaims_panic [DecidableEq F] (pcs : Pcs F C B) (H : Oracle F C) {a : Nat} {g : Guards} {b : Bool} (h : (.comms a, b) ∈ g)
    (s : VSt F C B) : (verifyClaims pcs H a g s).1 = .error .panic := by
  unfold verifyClaims convertZero
  rw [Act.reads_bind]
  exact act_bind_panic (act_bind_panic (trackVirtual_panic h _ _) _) _

end GTracker
end Zksql
