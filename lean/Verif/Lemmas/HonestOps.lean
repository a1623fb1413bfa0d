import Verif.Lemmas.HonestBag
import Verif.Lemmas.Advice
/-! Honest runs of the checks built on the multiset check. -/
set_option linter.unusedSectionVars false
namespace Zksql
open Spec
variable {F C B : Type} [Field F] [DecidableEq F]
variable {E : Env F C} {P : C → List F → F} {N : Nat} {Sz : Prop} {t t1 t2 t' : PTracker F C} {s s1 s' : VSt F C B}
variable {α β α0 β0 : Type} {Γ Γ1 : Facts F} {bounds b1 b2 : List Nat} {Φ Φ' : Prop}

/-- A bag on both sides. -/
structure BOk (Γ : Facts F) (t : PTracker F C) (b : Bag) (c : BagComm) (T : BagTab F) : Prop where
  nvp : b.poly.numVars = T.nv
  nvs : b.selector.numVars = T.nv
  nvc : c.numVars = T.nv
  pv : PH t b.poly T.val
  ps : PH t b.selector T.sel
  fv : Γ c.poly T.nv T.val
  fs : Γ c.selector T.nv T.sel

theorem BOk.mono {b : Bag} {c : BagComm} {T : BagTab F} (h : BOk Γ t b c T) (x : Ext E t t1) (hΓ : Γ ≤ Γ1) : BOk Γ1 t1 b c T :=
  ⟨h.nvp, h.nvs, h.nvc, x.ph h.pv, x.ph h.ps, hΓ _ _ _ h.fv, hΓ _ _ _ h.fs⟩

theorem BOk.eok {b : Bag} {c : BagComm} {T : BagTab F} (h : BOk Γ t b c T) {m : TPoly} {i : Nat} {M : Nat → F} (hn : m.numVars = T.nv) (hp : PH t m M)
    (hi : Γ i T.nv M) : EOk Γ t ((b, m), (c, i), (T, M)) :=
  ⟨h.nvp, h.nvs, hn, h.nvc, h.pv, h.ps, hp, h.fv, h.fs, hi⟩

/-- A column on both sides. -/
structure COk (Γ : Facts F) (t : PTracker F C) (a : TPoly) (i nv : Nat) (T : Nat → F) : Prop where
  size : a.numVars = nv
  p : PH t a T
  f : Γ i nv T

theorem COk.mono {a : TPoly} {i nv : Nat} {T : Nat → F} (h : COk Γ t a i nv T) (x : Ext E t t1) (hΓ : Γ ≤ Γ1) : COk Γ1 t1 a i nv T :=
  ⟨h.size, x.ph h.p, hΓ _ _ _ h.f⟩

theorem BOk.cp {b : Bag} {c : BagComm} {T : BagTab F} (h : BOk Γ t b c T) : COk Γ t b.poly c.poly T.nv T.val := ⟨h.nvp, h.pv, h.fv⟩
theorem BOk.cs {b : Bag} {c : BagComm} {T : BagTab F} (h : BOk Γ t b c T) : COk Γ t b.selector c.selector T.nv T.sel := ⟨h.nvs, h.ps, h.fs⟩

theorem COk.bok {a b : TPoly} {i j nv : Nat} {T S : Nat → F} (ha : COk Γ t a i nv T) (hb : COk Γ t b j nv S) :
    BOk Γ t ⟨a, b⟩ ⟨i, j, nv⟩ ⟨nv, T, S⟩ := ⟨ha.size, hb.size, rfl, ha.p, hb.p, ha.f, hb.f⟩

section
variable {a b : TPoly} {i j nv : Nat} {T S : Nat → F} {f : TPoly → Oracle F C → Act (PTracker F C) α}
  {g : Nat → CompiledProof F C B → Oracle F C → Act (VSt F C B) β}

theorem k_add (hr : Ready E.commit t) (ha : COk Γ t a i nv T) (hb : COk Γ t b j nv S)
    (h : ∀ x t1 Γ1, Ext E t t1 → Γ ≤ Γ1 → COk Γ1 t1 x x.id nv (fun b => T b + S b) → GF E P N Sz (f x) (g x.id) Γ1 t1 bounds Φ) :
    GF E P N Sz (fun H => a.add b >>= fun x => f x H) (fun pf H => VSt.addComms i j >>= fun x => g x pf H) Γ t bounds Φ :=
  c_add hr ha.p hb.p (ha.size.trans hb.size.symm) (ha.size ▸ ha.f) (ha.size ▸ hb.f) fun x t1 Γ1 h1 h2 h3 h4 h5 =>
    h x t1 Γ1 h1 h2 ⟨h3.trans ha.size, h4, ha.size ▸ h5⟩

theorem k_sub (hr : Ready E.commit t) (ha : COk Γ t a i nv T) (hb : COk Γ t b j nv S)
    (h : ∀ x t1 Γ1, Ext E t t1 → Γ ≤ Γ1 → COk Γ1 t1 x x.id nv (fun b => T b - S b) → GF E P N Sz (f x) (g x.id) Γ1 t1 bounds Φ) :
    GF E P N Sz (fun H => a.sub b >>= fun x => f x H) (fun pf H => VSt.subComms i j >>= fun x => g x pf H) Γ t bounds Φ :=
  c_sub hr ha.p hb.p (ha.size.trans hb.size.symm) (ha.size ▸ ha.f) (ha.size ▸ hb.f) fun x t1 Γ1 h1 h2 h3 h4 h5 =>
    h x t1 Γ1 h1 h2 ⟨h3.trans ha.size, h4, ha.size ▸ h5⟩

theorem k_mul (hr : Ready E.commit t) (ha : COk Γ t a i nv T) (hb : COk Γ t b j nv S)
    (h : ∀ x t1 Γ1, Ext E t t1 → Γ ≤ Γ1 → COk Γ1 t1 x x.id nv (fun b => T b * S b) → GF E P N Sz (f x) (g x.id) Γ1 t1 bounds Φ) :
    GF E P N Sz (fun H => a.mul b >>= fun x => f x H) (fun pf H => VSt.mulComms i j >>= fun x => g x pf H) Γ t bounds Φ :=
  c_mul hr ha.p hb.p (ha.size.trans hb.size.symm) (ha.size ▸ ha.f) (ha.size ▸ hb.f) fun x t1 Γ1 h1 h2 h3 h4 h5 =>
    h x t1 Γ1 h1 h2 ⟨h3.trans ha.size, h4, ha.size ▸ h5⟩

theorem k_mulScalar {c : F} (hr : Ready E.commit t) (ha : COk Γ t a i nv T)
    (h : ∀ x t1 Γ1, Ext E t t1 → Γ ≤ Γ1 → COk Γ1 t1 x x.id nv (fun b => c * T b) → GF E P N Sz (f x) (g x.id) Γ1 t1 bounds Φ) :
    GF E P N Sz (fun H => a.mulScalar c >>= fun x => f x H) (fun pf H => VSt.mulScalar i c >>= fun x => g x pf H) Γ t bounds Φ :=
  c_mulScalar hr ha.p (ha.size ▸ ha.f) fun x t1 Γ1 h1 h2 h3 h4 h5 => h x t1 Γ1 h1 h2 ⟨h3.trans ha.size, h4, ha.size ▸ h5⟩

theorem k_addScalar {c : F} (hr : Ready E.commit t) (ha : COk Γ t a i nv T)
    (h : ∀ x t1 Γ1, Ext E t t1 → Γ ≤ Γ1 → COk Γ1 t1 x x.id nv (fun b => T b + c) → GF E P N Sz (f x) (g x.id) Γ1 t1 bounds Φ) :
    GF E P N Sz (fun H => a.addScalar c >>= fun x => f x H) (fun pf H => VSt.addScalar i c >>= fun x => g x pf H) Γ t bounds Φ :=
  c_addScalar hr ha.p (ha.size ▸ ha.f) fun x t1 Γ1 h1 h2 h3 h4 h5 => h x t1 Γ1 h1 h2 ⟨h3.trans ha.size, h4, ha.size ▸ h5⟩

theorem k_commit {d : Bool} {p : Mle F} (hr : Ready E.commit t) (hp : p = tabMle nv T) (hN : nv ≤ N) (hC : CanCommit E.commit N)
    (h : ∀ x t1 Γ1, Ext E t t1 → Γ ≤ Γ1 → COk Γ1 t1 x x.id nv T → GF E P N Sz (f x) (g x.id) Γ1 t1 bounds Φ) :
    GF E P N Sz (fun H => TPoly.trackAndCommit E.commit p >>= fun x => f x H)
      (fun pf H => VSt.getNextId >>= fun id => VSt.transferComm d id >>= fun x => g x pf H) Γ t bounds Φ := by
  subst hp
  exact c_commitT hr hN hC fun x t1 Γ1 h1 h2 h3 h4 h5 => h x t1 Γ1 h1 h2 ⟨h3, h4, h5⟩

theorem k_pub {p : Mle F} {fn : List F → Res F} (hr : Ready E.commit t) (hp : p = tabMle nv T) (hN : nv ≤ N)
    (hfn : Sz → ∀ b < 2 ^ N, fn (boolPt N b) = .ok (T (b % 2 ^ nv)))
    (h : ∀ x t1 Γ1, Ext E t t1 → Γ ≤ Γ1 → COk Γ1 t1 x x.id nv T → GF E P N Sz (f x) (g x.id) Γ1 t1 bounds Φ) :
    GF E P N Sz (fun H => TPoly.trackMat p >>= fun x => f x H) (fun pf H => VSt.trackVirtual (.fn fn) >>= fun x => g x pf H) Γ t bounds Φ := by
  subst hp
  exact c_pubT hr hN hfn fun x t1 Γ1 h1 h2 h3 h4 h5 => h x t1 Γ1 h1 h2 ⟨h3, h4, h5⟩

theorem onesMle_eq (nv : Nat) : onesMle F nv = tabMle nv fun _ => 1 := by
  unfold onesMle tabMle
  congr 1
  simp

theorem k_ones (hr : Ready E.commit t) (hN : nv ≤ N)
    (h : ∀ x t1 Γ1, Ext E t t1 → Γ ≤ Γ1 → COk Γ1 t1 x x.id nv (fun _ => (1 : F)) → GF E P N Sz (f x) (g x.id) Γ1 t1 bounds Φ) :
    GF E P N Sz (fun H => TPoly.trackMat (onesMle F nv) >>= fun x => f x H) (fun pf H => VSt.trackVirtual (oneFn F) >>= fun x => g x pf H) Γ t bounds Φ :=
  k_pub hr (onesMle_eq nv) hN (fun _ _ _ => rfl) h

end

theorem k_zero {a : TPoly} {nv : Nat} {T : Nat → F} {f : Unit → Oracle F C → Act (PTracker F C) α}
    {g : Unit → CompiledProof F C B → Oracle F C → Act (VSt F C B) β} (hr : Ready E.commit t) (hi : COk Γ t a a.id nv T) (hT : Φ → ∀ b < 2 ^ nv, T b = 0)
    (h : ∀ t1, Ext E t t1 → GF E P N Sz (f ()) (g ()) Γ t1 bounds Φ) :
    GF E P N Sz (fun H => PTracker.addZeroClaim a.id >>= fun x => f x H) (fun pf H => VSt.addZeroClaim a.id >>= fun x => g x pf H) Γ t bounds Φ :=
  c_zero hr hi.size hi.p hi.f hT h

theorem k_bagNew {d : Bool} {a b : TPoly} {f : Bag → Oracle F C → Act (PTracker F C) α}
    {v : CompiledProof F C B → Oracle F C → Act (VSt F C B) β} (hr : Ready E.commit t) (hn : a.numVars = b.numVars)
    (h : GF E P N Sz (f ⟨a, b⟩) v Γ t bounds Φ) : GF E P N Sz (fun H => Bag.new d a b >>= fun x => f x H) v Γ t bounds Φ := by
  unfold Bag.new
  simp only [Act.bind_assoc]
  exact c_assert hr (fun _ => hn) h

/-- Another size for a constant. -/
theorem c_const {i nv nv' : Nat} {c : F} {m : Oracle F C → Act (PTracker F C) α} {v : CompiledProof F C B → Oracle F C → Act (VSt F C B) β}
    (hi : Γ i nv fun _ => c) (hN : nv' ≤ N) (h : GF E P N Sz m v (Γ.ins i nv' fun _ => c) t bounds Φ) : GF E P N Sz m v Γ t bounds Φ := by
  obtain ⟨bad, h⟩ := h
  refine ⟨bad, fun H => ?_⟩
  obtain ⟨a, t', h1, h2, h3, h4, hz5, h5⟩ := h H
  have tr : ∀ s : VSt F C B, Truth E P N Sz Γ s → Truth E P N Sz (Γ.ins i nv' fun _ => c) s := by
    rintro s ⟨a0, a1, a2⟩
    refine ⟨a0, ?_, a2⟩
    rintro j m U (hj | ⟨rfl, rfl, rfl⟩)
    · exact a1 _ _ _ hj
    · exact ⟨hN, (a1 _ _ _ hi).2⟩
  refine ⟨a, t', h1, h2, h3, h4, hz5, fun s hm hc => ?_⟩
  have hm' : Match (Γ.ins i nv' fun _ => c) t s := by
    refine ⟨hm.sane, hm.tog, ?_⟩
    rintro j m U (hj | ⟨rfl, rfl, rfl⟩)
    · exact hm.known _ _ _ hj
    · exact hm.known _ _ _ hi
  rcases h5 s hm' hc with ⟨b, s', k1, k2, k3, k4⟩ | ⟨s', k1, k2⟩
  · exact .inl ⟨b, s', k1, ⟨k2.sane, k2.tog, fun j m U hj => k2.known j m U (.inl hj)⟩, k3, fun a1 => k4 (tr s a1)⟩
  · exact .inr ⟨s', k1, k2⟩

/-! ### Equality and sum -/

variable {bf bg b0 : Bag} {cf cg c0 : BagComm} {Tf Tg T0 : BagTab F}

theorem bagEq_cmp (hr : Ready E.commit t) (hf : BOk Γ t bf cf Tf) (hg : BOk Γ t bg cg Tg) (hn : Tf.nv = Tg.nv) (hN : Tf.nv ≤ N) (h2 : (2 : F) ≠ 0)
    (hC : CanCommit E.commit N) (hΦ : Φ → ∀ z, Tf.weight (fun _ => 1) z = Tg.weight (fun _ => 1) z) :
    Cmp (B := B) E P N Sz (fun H => BagEq.prove (E.withH H) bf bg) (fun H => BagEq.verify (E.withH H) cf cg) Γ t [2 ^ cf.numVars + 2 ^ cg.numVars] Φ := by
  intro α β f g b2 h
  unfold BagEq.prove BagEq.verify
  have e0 : (bf.numVars ≠ bg.numVars) = False := by simp [Bag.numVars, hf.nvp, hg.nvp, hn]
  simp only [e0, if_false, Act.bind_assoc]
  have e1 : bf.numVars = Tf.nv := hf.nvp
  rw [e1]
  refine k_ones hr hN fun m t1 Γ1 x1 g1 c1 => ?_
  have := multitool_cmp (B := B) (E := E) (P := P) (N := N) (Sz := Sz) (Φ := Φ) (Lf := [((bf, m), (cf, m.id), (Tf, fun _ => 1))])
    (Lg := [((bg, m), (cg, m.id), (Tg, fun _ => 1))]) (D := 2 ^ cf.numVars + 2 ^ cg.numVars) x1.ready
    (by simpa using (hf.mono x1 g1).eok c1.size c1.p c1.f) (by simpa using (hg.mono x1 g1).eok (c1.size.trans hn) c1.p (hn ▸ c1.f)) (by simp) (by simp)
    (by simp [hN, ← hn]) h2 hC (fun hφ z => by simpa [Side.total] using hΦ hφ z) (by simp [hf.nvc, hg.nvc])
  exact this.bind fun t2 Γ2 x2 g2 => h t2 Γ2 (x1.trans x2) (g1.trans g2)

theorem bagSum_cmp (hr : Ready E.commit t) (h0 : BOk Γ t b0 c0 T0) (hf : BOk Γ t bf cf Tf) (hg : BOk Γ t bg cg Tg) (hN0 : T0.nv ≤ N) (hN1 : Tf.nv ≤ N)
    (hNg : Tg.nv ≤ N) (h2 : (2 : F) ≠ 0) (hC : CanCommit E.commit N)
    (hΦ : Φ → ∀ z, T0.weight (fun _ => 1) z + Tf.weight (fun _ => 1) z = Tg.weight (fun _ => 1) z) :
    Cmp (B := B) E P N Sz (fun H => BagSum.prove (E.withH H) b0 bf bg) (fun H => BagSum.verify (E.withH H) c0 cf cg) Γ t
      [2 ^ c0.numVars + 2 ^ cf.numVars + 2 ^ cg.numVars] Φ := by
  intro α β f g b2 h
  unfold BagSum.prove BagSum.verify
  simp only [Act.bind_assoc]
  have e0 : b0.numVars = T0.nv := h0.nvp
  have e1 : bf.numVars = Tf.nv := hf.nvp
  have e2 : bg.numVars = Tg.nv := hg.nvp
  rw [e0, e1, e2]
  refine k_ones hr hN0 fun m0 t1 Γ1 x1 g1 k1 => ?_
  refine k_ones x1.ready hN1 fun m1 t2 Γ2 x2 g2 k2 => ?_
  refine k_ones x2.ready hNg fun mg t3 Γ3 x3 g3 k3 => ?_
  have j0 := (k1.mono x2 g2).mono x3 g3
  have j1 := k2.mono x3 g3
  refine c_const (nv' := Tf.nv) j0.f hN1 (c_const (nv' := Tg.nv) (Facts.le_ins _ _ _ _ _ _ _ j0.f) hNg ?_)
  have x := (x1.trans x2).trans x3
  have gg : Γ ≤ (Γ3.ins m0.id Tf.nv fun _ => 1).ins m0.id Tg.nv fun _ => 1 :=
    ((g1.trans g2).trans g3).trans ((Facts.le_ins _ _ _ _).trans (Facts.le_ins _ _ _ _))
  have := multitool_cmp (B := B) (E := E) (P := P) (N := N) (Sz := Sz) (Φ := Φ) (Γ := (Γ3.ins m0.id Tf.nv fun _ => 1).ins m0.id Tg.nv fun _ => 1)
    (Lf := [((b0, m0), (c0, m0.id), (T0, fun _ => 1)), ((bf, m1), (cf, m0.id), (Tf, fun _ => 1))])
    (Lg := [((bg, mg), (cg, m0.id), (Tg, fun _ => 1))]) (D := 2 ^ c0.numVars + 2 ^ cf.numVars + 2 ^ cg.numVars) x3.ready
    (by
      intro q hq
      simp only [List.mem_cons, List.not_mem_nil, or_false] at hq
      rcases hq with rfl | rfl
      · exact (h0.mono x gg).eok j0.size j0.p (Facts.le_ins _ _ _ _ _ _ _ (Facts.le_ins _ _ _ _ _ _ _ j0.f))
      · exact (hf.mono x gg).eok j1.size j1.p (Facts.le_ins _ _ _ _ _ _ _ (Facts.mem_ins _ _ _ _)))
    (by simpa using (hg.mono x gg).eok k3.size k3.p (Facts.mem_ins _ _ _ _)) (by simp) (by simp)
    (by simp [hN0, hN1, hNg]) h2 hC (fun hφ z => by simpa [Side.total] using hΦ hφ z) (by simp [h0.nvc, hf.nvc, hg.nvc, add_assoc])
  exact this.bind fun t4 Γ4 x4 g4 => h t4 Γ4 (x.trans x4) (gg.trans g4)

/-! ### Inclusion -/

theorem inclusionAdvice_cmp {m : TPoly} {i : Nat} {M : Nat → F} (hr : Ready E.commit t) (hf : BOk Γ t bf cf Tf) (hg : BOk Γ t bg cg Tg)
    (hm : COk Γ t m i Tg.nv M) (hNf : Tf.nv ≤ N) (hNg : Tg.nv ≤ N) (h2 : (2 : F) ≠ 0)
    (hC : CanCommit E.commit N) (hΦ : Φ → ∀ z, Tf.weight (fun _ => 1) z = Tg.weight M z) :
    Cmp (B := B) E P N Sz (fun H => Inclusion.proveWithAdvice (E.withH H) bf bg m) (fun H => Inclusion.verifyWithAdvice (E.withH H) cf cg i) Γ t
      [2 ^ cf.numVars + 2 ^ cg.numVars] Φ := by
  intro α β f g b2 h
  unfold Inclusion.proveWithAdvice Inclusion.verifyWithAdvice
  simp only [Act.bind_assoc]
  have e1 : bf.numVars = Tf.nv := hf.nvp
  rw [e1]
  refine k_ones hr hNf fun o t1 Γ1 x1 g1 c1 => ?_
  have hm' := hm.mono x1 g1
  have := multitool_cmp (B := B) (E := E) (P := P) (N := N) (Sz := Sz) (Φ := Φ) (Lf := [((bf, o), (cf, o.id), (Tf, fun _ => 1))])
    (Lg := [((bg, m), (cg, i), (Tg, M))]) (D := 2 ^ cf.numVars + 2 ^ cg.numVars) x1.ready
    (by simpa using (hf.mono x1 g1).eok c1.size c1.p c1.f) (by simpa using (hg.mono x1 g1).eok hm'.size hm'.p hm'.f) (by simp) (by simp)
    (by simp [hNf, hNg]) h2 hC (fun hφ z => by simpa [Side.total] using hΦ hφ z) (by simp [hf.nvc, hg.nvc])
  exact this.bind fun t2 Γ2 x2 g2 => h t2 Γ2 (x1.trans x2) (g1.trans g2)

theorem fromEvals_map {n nv : Nat} (h : n = nv) (T : Nat → F) : Mle.fromEvals n ((List.range (2 ^ nv)).map T) = .ok (tabMle nv T) := by
  subst h
  unfold Mle.fromEvals
  rw [if_pos (by simp)]; rfl

theorem c_incAdvice {f : Mle F → Oracle F C → Act (PTracker F C) α} {v : CompiledProof F C B → Oracle F C → Act (VSt F C B) β}
    (hr : Ready E.commit t) (hf : BOk Γ t bf cf Tf) (hg : BOk Γ t bg cg Tg)
    (h : ∀ t1, Ext E t t1 → GF E P N Sz (f (tabMle Tg.nv (incMult Tf Tg))) v Γ t1 bounds Φ) :
    GF E P N Sz (fun H => Inclusion.advice bf bg >>= fun x => f x H) v Γ t bounds Φ := by
  unfold Inclusion.advice
  simp only [Act.bind_assoc]
  refine c_eval hr hf.pv fun t1 x1 => ?_
  rw [hf.nvp]
  refine c_lift x1.ready (fromEvals_map hf.nvp _) ?_
  refine c_eval x1.ready (x1.ph hf.ps) fun t2 x2 => ?_
  rw [hf.nvs]
  refine c_lift x2.ready (fromEvals_map hf.nvp _) ?_
  have y2 := x1.trans x2
  refine c_eval x2.ready (y2.ph hg.pv) fun t3 x3 => ?_
  rw [hg.nvp]
  refine c_lift x3.ready (fromEvals_map hg.nvp _) ?_
  have y3 := y2.trans x3
  refine c_eval x3.ready (y3.ph hg.ps) fun t4 x4 => ?_
  rw [hg.nvs]
  refine c_lift x4.ready (fromEvals_map hg.nvp _) ?_
  refine c_lift x4.ready (adviceMle_spec Tf Tg _ _ _ _ rfl rfl rfl rfl rfl) ?_
  exact h t4 (y3.trans x4)

theorem inclusion_cmp (hr : Ready E.commit t) (hf : BOk Γ t bf cf Tf) (hg : BOk Γ t bg cg Tg) (hNf : Tf.nv ≤ N) (hNg : Tg.nv ≤ N) (h2 : (2 : F) ≠ 0)
    (hC : CanCommit E.commit N) (hΦ : Φ → Tf.Boolean ∧ Tg.Boolean ∧ ∀ z, Tf.Active z → Tg.Active z) :
    Cmp (B := B) E P N Sz (fun H => Inclusion.prove (E.withH H) bf bg) (fun H => Inclusion.verify (E.withH H) cf cg) Γ t
      [2 ^ cf.numVars + 2 ^ cg.numVars] Φ := by
  intro α β f g b2 h
  unfold Inclusion.prove Inclusion.verify
  simp only [Act.bind_assoc]
  refine c_incAdvice hr hf hg fun t1 x1 => ?_
  refine k_commit x1.ready rfl hNg hC fun m t2 Γ2 x2 g2 k2 => ?_
  have y2 := x1.trans x2
  refine (inclusionAdvice_cmp x2.ready (hf.mono y2 g2) (hg.mono y2 g2) k2 hNf hNg h2 hC fun hφ => ?_).bind fun t3 Γ3 x3 g3 =>
    h t3 Γ3 (y2.trans x3) (g2.trans g3)
  obtain ⟨h1, h3, h4⟩ := hΦ hφ
  exact incMult_total h1 h3 h4

/-! ### Pointwise checks -/

theorem noZeros_cmp (hr : Ready E.commit t) (hf : BOk Γ t bf cf Tf) (hNf : Tf.nv ≤ N)
    (hC : CanCommit E.commit N) (hΦ : Φ → ∀ i < 2 ^ Tf.nv, Tf.sel i ≠ 0 → Tf.val i ≠ 0) :
    Cmp (B := B) E P N Sz (fun H => NoZeros.prove (E.withH H) bf) (fun H => NoZeros.verify (E.withH H) cf) Γ t [] Φ := by
  intro α β f g b2 h
  unfold NoZeros.prove NoZeros.verify
  simp only [Act.bind_assoc]
  refine c_eval hr hf.pv fun t1 x1 => ?_
  rw [List.map_map, hf.nvp]
  refine c_lift x1.ready (fromEvals_map hf.nvp _) ?_
  refine k_commit x1.ready rfl hNf hC fun m t2 Γ2 x2 g2 k2 => ?_
  have hf2 := hf.mono (x1.trans x2) g2
  refine k_mul x2.ready hf2.cp hf2.cs fun ps t3 Γ3 x3 g3 k3 => ?_
  refine k_mul x3.ready k3 (k2.mono x3 g3) fun psi t4 Γ4 x4 g4 k4 => ?_
  refine k_sub x4.ready k4 (hf2.cs.mono (x3.trans x4) (g3.trans g4)) fun ck t5 Γ5 x5 g5 k5 => ?_
  refine k_zero x5.ready k5 (fun hφ b hb => ?_) fun t6 x6 => ?_
  · simp only [Function.comp]
    by_cases h0 : Tf.sel b = 0
    · simp [h0]
    · have := hΦ hφ b hb h0
      field_simp
      ring
  · exact h t6 Γ5 ((((((x1.trans x2).trans x3).trans x4).trans x5)).trans x6) ((((g2.trans g3).trans g4).trans g5))

theorem selectorValid_cmp {m : TPoly} {i nv : Nat} {M : Nat → F} (hr : Ready E.commit t) (hm : COk Γ t m i nv M)
    (hΦ : Φ → ∀ b < 2 ^ nv, M b = 0 ∨ M b = 1) :
    Cmp (B := B) E P N Sz (fun _ => SelectorValid.prove m) (fun _ => SelectorValid.verify i) Γ t [] Φ := by
  intro α β f g b2 h
  unfold SelectorValid.prove SelectorValid.verify
  simp only [Act.bind_assoc]
  refine k_mulScalar hr hm fun a t1 Γ1 x1 g1 k1 => ?_
  refine k_addScalar x1.ready k1 fun b t2 Γ2 x2 g2 k2 => ?_
  refine k_mul x2.ready (hm.mono (x1.trans x2) (g1.trans g2)) k2 fun c t3 Γ3 x3 g3 k3 => ?_
  refine k_zero x3.ready k3 (fun hφ b hb => ?_) fun t4 x4 => h t4 Γ3 (((x1.trans x2).trans x3).trans x4) ((g1.trans g2).trans g3)
  rcases hΦ hφ b hb with h | h <;> simp [h]

end Zksql
