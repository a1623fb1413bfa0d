import Verif.Spec.EndToEnd
import Verif.Lemmas.HonestEx
import Verif.Lemmas.Accept
/-!
An honest run of a protocol that fits together (`Completes`) is accepted after compiling.
-/
set_option linter.unusedSectionVars false
namespace Zksql
open Spec
variable {F : Type} [Field F] [DecidableEq F] {E : Curve F} {V : Env F E.G1} {g : E.G1} {h : E.G2} {T : List F} {N d : Nat}

/-- All polynomials that fit the parameters can be committed to. -/
theorem kzg_canCommit (hN : N ≤ T.length) : CanCommit (kzgCommit (proverParamOf g h T)) N :=
  fun p hp hn => ⟨_, kzgCommit_spec g h T p hp (hn.trans hN)⟩

/-- The sum over the larger hypercube of the equalised table. -/
theorem equalize_tsum {C : Type} {R : Mle F → C → Prop} {t te : PTracker F C} (hI : t.Inv R) (hc : ∀ c ∈ t.sumClaims, ∃ nv, t.HasNv c.1 nv)
    (heq : PTracker.equalize t = (.ok N, te)) (hm : t.mats ≠ []) {id nv : Nat} (hn : t.HasNv id nv) :
    te.tsum N id = 2 ^ (N - nv) * cubeSum nv fun b => t.gval (fun p => p.tbl b) id := by
  obtain ⟨N', t1, te', _, _, hE, _, e, _, hp, _⟩ := PTracker.equalize_run hI hm hc
  rw [heq] at e
  obtain ⟨e1, rfl⟩ := Prod.mk.inj e
  obtain rfl : N = N' := Except.ok.inj e1
  obtain ⟨hle, hn1⟩ := hE.hasNv hn
  rw [hp.tsum hn1, ← cubeSum_mod hle]
  unfold PTracker.tsum cubeSum
  rw [list_sum_range']
  exact Finset.sum_congr rfl fun b hb => hE.gval_tbl hn b (Finset.mem_range.1 hb)

/-- The compiled proof of a state whose claims are true. -/
theorem compile_true (debug : Bool) (H : Oracle F E.G1) {t : PTracker F E.G1} (hr : Spec.Ready (kzgCommit (proverParamOf g h T)) t) (hk : Compilable t T.length d N)
    (hd : 1 ≤ d) (hchar : NatsNonzero F (d + 1)) (hs : SumsTrueP t) (hz : ZerosTrueP t) :
    ∃ (p : CompiledProof F E.G1 (BatchProof E)) (bp : BatchProof E), (PTracker.compile debug (kzgOf H g h T) H t).1 = .ok p ∧ p.pcsProof = [bp] ∧
      p.scMaxDegree ≤ d + 1 ∧ Carries p t ∧ TrueSums N p t ∧
      ∀ s : VSt F E.G1 (BatchProof E), Sane s → Together t s → s.own.proof = p → Avoids p.scProof.point p.scMaxDegree → Avoids bp.sumCheckProof.point 2 →
        (VSt.verifyClaims (kzgOf H g h T) H s).1 = .ok () := by
  let V : Env F E.G1 := ⟨kzgCommit (proverParamOf g h T), H, debug, fun _ => 0⟩
  have hr' : Spec.Ready V.commit t := hr
  have hsn : ∀ c ∈ t.sumClaims, ∃ nv, t.HasNv c.1 nv := fun c hc => by
    obtain ⟨a, U, e, k, -⟩ := hs c hc
    exact ⟨a.numVars, e ▸ (k.ph hr').nv⟩
  have hzn : ∀ c ∈ t.zeroClaims, ∃ nv, t.HasNv c nv := fun c hc => by
    obtain ⟨a, U, e, k, -⟩ := hz c hc
    exact ⟨a.numVars, e ▸ (k.ph hr').nv⟩
  obtain ⟨e0, he0, hn0⟩ := hk.top
  have hmne : t.mats ≠ [] := fun e => by rw [e] at he0; simp at he0
  obtain ⟨p, bp, N', te, h1, h2, h3, h4, h5, h6, h7, h8, h9⟩ := accept_T (H := H) (g := g) (h := h) debug hr.inv hr.started
    (fun e he => (hk.fits e he).trans hk.room) ⟨e0, he0, by have := hk.pos; omega⟩ hsn hzn hk.two hd
    (fun id v hi hv q hq => hk.degree id hi v hv q hq) hchar (fun c hc nv hnv b hb => by
      obtain ⟨a, U, e, k, hU⟩ := hz c hc
      subst e
      have hp := k.ph hr'
      obtain rfl := hp.nv.unique hnv
      rw [hp.val b hb, hU b hb])
  obtain rfl : N = N' := by
    obtain ⟨e1, he1, hn1⟩ := h6
    have a1 := h5 e0 he0
    have a2 := hk.fits e1 he1
    omega
  refine ⟨p, bp, h1, h2, h3, ⟨fun id c hc => by rw [h4]; exact hc, fun e he => ⟨_, h8 e.1 (List.mem_map.2 ⟨e, he, rfl⟩)⟩⟩, fun e he nv hnv => ?_,
    fun s hsa htog hpf a1 a2 => ?_⟩
  · obtain ⟨a, U, ea, k, hU⟩ := hs e he
    have hp := k.ph hr'
    have hav : a.numVars = nv := by
      have := k.1
      rw [ea, hnv] at this
      exact (Except.ok.inj this).symm
    rw [h8 e.1 (List.mem_map.2 ⟨e, he, rfl⟩), equalize_tsum hr.inv hsn h7 hmne (ea ▸ hp.nv), hav, ← hU, hav]
    congr 2
    unfold cubeSum
    refine Finset.sum_congr rfl fun b hb => ?_
    beta_reduce
    rw [← ea, hp.val b (by rw [hav]; exact Finset.mem_range.1 hb)]
  · exact (h9 ⟨s, []⟩ hsa.wf hsa.zeros hsa.sums hpf htog.transcript htog.comms htog.sums htog.zeros htog.read a1 a2).1

/-- Honest runs are accepted. -/
theorem Spec.CompletesOutside.accepted {bad : List (TEvent F E.G1) → Finset F} {P : E.G1 → List F → F} {α β : Type} {m : Env F E.G1 → Act (PTracker F E.G1) α} {v : Env F E.G1 → Act (VSt F E.G1 (BatchProof E)) β}
    {t : PTracker F E.G1} {bounds : List Nat} {Inputs Contents : VSt F E.G1 (BatchProof E) → Prop} {Valid Fits : Prop} (hV : V.commit = kzgCommit (proverParamOf g h T))
    (hd : 1 ≤ d) (hchar : NatsNonzero F (d + 1)) (hc : CompletesOutside bad V P N m v t bounds Inputs Contents Valid Fits) :
    RunAcceptedOutside bad V g h T N d m v t bounds Inputs Valid := by
  intro H
  obtain ⟨a, t', h1, h2, hkeep, h3, h4, h5, h6, h7⟩ := hc H
  refine ⟨a, t', h1, h3, h4, fun hk hv hs hz hav => ?_⟩
  rw [hV] at h2
  obtain ⟨p, bp, q1, q2, q3, q4, q5, q6⟩ := compile_true V.debug H h2 hk hd hchar (h5 hs) (h6 hv hav hz)
  refine ⟨p, bp, q1, q2, q3, fun s hsa htog hin hpf => ?_⟩
  rcases h7 s hsa htog hin (by rw [hpf]; exact q4) with ⟨b, s', k1, k2, k3, k4, -⟩ | ⟨s', k1, k2⟩
  · exact ⟨b, s', k1, fun a1 a2 => q6 s' k2 k3 (k4.trans hpf) a1 a2⟩
  · exact absurd ⟨by rw [hpf]; exact q5, hv, hav⟩ k2

theorem committed_eq {C : Type} (commit : Mle F → Res C) (cols : List (Mle F)) : committed commit cols = startP commit cols PTracker.new := by
  unfold committed
  generalize (PTracker.new : PTracker F C) = t
  induction cols generalizing t with
  | nil => rfl
  | cons p ps ih => exact ih _

/-- The state after committing. -/
theorem committed_ready {cols : List (Mle F)} (hV : V.commit = kzgCommit (proverParamOf g h T)) (hcols : ∀ p ∈ cols, p.WF ∧ p.numVars ≤ T.length) (hne : cols ≠ []) :
    Spec.Ready V.commit (committed V.commit cols) ∧ ∀ i p, cols[i]? = some p → HoldsP (committed V.commit cols) ⟨i, p.numVars⟩ p.tbl := by
  have hi0 : (PTracker.new : PTracker F E.G1).Inv (commR V.commit) := (stInv_init (commit := V.commit)).inv
  have hC : CanCommit V.commit T.length := hV ▸ kzg_canCommit le_rfl
  have base := start_run (B := BatchProof E) (E := V) (P := fun _ _ => 0) V.debug (fun _ _ => 0) hC cols hcols (Γ := Facts.none) hi0
  rw [← committed_eq] at base
  obtain ⟨i1, i2, i3, i4, i5, i6, i7, -⟩ := base
  have hr : Spec.Ready V.commit (committed V.commit cols) := ⟨i1, i2 (.inl hne)⟩
  refine ⟨hr, fun i p hip => ?_⟩
  have := (i7 i p hip).holdsP hr
  rw [show (PTracker.new : PTracker F E.G1).idCounter = 0 from rfl, Nat.zero_add] at this
  exact this

/-- The same from scratch. -/
theorem fromScratch_of {bad : List (TEvent F E.G1) → Finset F} {P : E.G1 → List F → F} {α β : Type} {m : Env F E.G1 → Act (PTracker F E.G1) α} {v : Env F E.G1 → Act (VSt F E.G1 (BatchProof E)) β}
    {cols : List (Mle F)} {bounds : List Nat} {Inputs Contents : VSt F E.G1 (BatchProof E) → Prop} {Valid Fits : Prop} (hV : V.commit = kzgCommit (proverParamOf g h T))
    (hd : 1 ≤ d) (hchar : NatsNonzero F (d + 1)) (hcols : ∀ p ∈ cols, p.WF ∧ p.numVars ≤ T.length) (hne : cols ≠ [])
    (ha : Spec.Ready V.commit (committed V.commit cols) → (∀ i p, cols[i]? = some p → HoldsP (committed V.commit cols) ⟨i, p.numVars⟩ p.tbl) →
      CompletesOutside bad V P N m v (committed V.commit cols) bounds Inputs Contents Valid Fits)
    (hin : ∀ s : VSt F E.G1 (BatchProof E), (∀ i p, cols[i]? = some p → Known s i) → Inputs s) :
    FromScratchOutside bad V g h T N d m v cols bounds Valid := by
  have hi0 : (PTracker.new : PTracker F E.G1).Inv (commR V.commit) := (stInv_init (commit := V.commit)).inv
  have hC : CanCommit V.commit T.length := hV ▸ kzg_canCommit le_rfl
  have base := fun H => start_run (B := BatchProof E) (E := V) (P := fun _ _ => 0) V.debug H hC cols hcols (Γ := Facts.none) hi0
  rw [← committed_eq] at base
  set t := committed V.commit cols with ht
  obtain ⟨i1, i2, i3, i4, i5, i6, i7, -⟩ := base fun _ _ => 0
  have hr : Spec.Ready V.commit t := ⟨i1, i2 (.inl hne)⟩
  have hid : (PTracker.new : PTracker F E.G1).idCounter = 0 := rfl
  have hc := ha hr fun i p hip => by
    have := (i7 i p hip).holdsP hr
    rw [hid, Nat.zero_add] at this
    exact this
  intro H
  obtain ⟨a, t', h1, h2, hkeep, h3, h4, h5, h6, h7⟩ := hc H
  refine ⟨a, t', h1, h3, h4, fun hk hv hav => ?_⟩
  have hs0 : SumsTrueP t := fun c hc => by rw [i4] at hc; exact absurd hc (by simp [PTracker.new])
  have hz0 : ZerosTrueP t := fun c hc => by rw [i5] at hc; exact absurd hc (by simp [PTracker.new])
  rw [hV] at h2
  obtain ⟨p, bp, q1, q2, q3, q4, q5, q6⟩ := compile_true V.debug H h2 hk hd hchar (h5 hs0) (h6 hv hav hz0)
  have hback : Carries p t := by
    refine ⟨fun id c hc => q4.comms id c (hkeep id c hc), fun e he => ?_⟩
    rw [i4] at he
    exact absurd he (by simp [PTracker.new])
  have hm0 : Match Facts.none (PTracker.new : PTracker F E.G1) (VState.withProof p : VState F E.G1 (BatchProof E)).st :=
    ⟨VReachable.sane (debug := true) (H := fun _ _ => 0) ⟨[.setProof p], rfl⟩, ⟨rfl, rfl, rfl, rfl, rfl, fun _ h => by simp [VState.withProof, VSt.new] at h⟩, fun _ _ _ h => h.elim⟩
  obtain ⟨-, -, -, -, -, -, -, i8⟩ := base H
  obtain ⟨vs, j1, j2, j3, -, -⟩ := i8 (VState.withProof p) hm0 hback
  have hpf : vs.st.own.proof = p := j3
  have hkn : ∀ i p, cols[i]? = some p → Known vs.st i := fun i p hip => by
    have := colFacts_mem (PTracker.new : PTracker F E.G1).idCounter cols Facts.none hip
    rw [hid, Nat.zero_add, ← hid] at this
    exact j2.known _ _ _ this
  refine ⟨p, bp, q1, q2, q3, vs, ?_⟩
  rcases h7 vs.st j2.sane j2.tog (hin _ hkn) (by rw [hpf]; exact q4) with ⟨b, s', k1, k2, k3, k4, -⟩ | ⟨s', k1, k2⟩
  · exact ⟨b, s', j1, k1, fun a1 a2 => q6 s' k2 k3 (k4.trans hpf) a1 a2⟩
  · exact absurd ⟨by rw [hpf]; exact q5, hv, hav⟩ k2

end Zksql
