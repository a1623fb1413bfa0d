import Verif.Lemmas.ProverTracker3
import Verif.Lemmas.ZeroCheck
import Verif.Model.Compile
/-! Helper lemmas about equalising and aggregating claims on the prover's side. -/
set_option linter.unusedSectionVars false
namespace Zksql
open Spec VirtPoly
variable {F C β : Type} [Field F]

namespace PTracker
variable {R R' : Mle F → C → Prop} {t t' : PTracker F C}

theorem Inv.weaken (hI : Inv R t) (h : ∀ p c, R p c → R' p c) : Inv R' t :=
  ⟨hI.matOk, hI.virtOk, hI.ptrs, fun id c hc => by
    obtain ⟨a, h1, h2⟩ := hI.commOk id c hc
    exact ⟨a, h1, h a.mle c h2⟩⟩

/-- The trivial relation. -/
abbrev anyR : Mle F → C → Prop := fun _ _ => True

/-! ### Equalising -/

/-- A polynomial extended to `N` variables. -/
def extMle (N : Nat) (p : Mle F) : Mle F :=
  match increaseNvBack p N with
  | .ok q => q
  | .error _ => p

theorem extMle_spec (N : Nat) (p : Mle F) (h : p.numVars ≤ N) :
    increaseNvBack p N = .ok (extMle N p) ∧ (p.WF → (extMle N p).WF) ∧ (extMle N p).numVars = N ∧
      ∀ i < 2 ^ N, (extMle N p).tbl i = p.tbl (i % 2 ^ p.numVars) := by
  obtain ⟨k, rfl⟩ := Nat.exists_eq_add_of_le h
  obtain ⟨q, h1, h2, h3, h4⟩ := increaseNvBack_spec p k
  have e : extMle (p.numVars + k) p = q := by unfold extMle; rw [h1]
  rw [e]
  exact ⟨h1, h2, h3, h4⟩

theorem extMle_same (p : Mle F) : extMle p.numVars p = p := by
  unfold extMle; rw [incBack_ok]

theorem extMle_mle (N : Nat) (p : Mle F) (h : p.numVars ≤ N) (x : List F) (hx : x.length = N) :
    mle (extMle N p).tbl x = mle p.tbl (x.take p.numVars) := by
  obtain ⟨_, _, _, h4⟩ := extMle_spec N p h
  have hl : (x.take p.numVars).length = p.numVars := by rw [List.length_take]; omega
  have e : x = x.take p.numVars ++ x.drop p.numVars := (List.take_append_drop _ _).symm
  rw [mle_congr (g := fun i => p.tbl (i % 2 ^ p.numVars)) x (fun i hi => h4 i (hx ▸ hi))]
  conv_lhs => rw [e]
  rw [mle_append_ignore_back]
  · apply mle_congr
    intro i hi
    rw [hl] at hi
    rw [Nat.mod_eq_of_lt hi]
  · intro i hi j hj
    simp only [hl]
    rw [Nat.mul_add_mod_self_right]

theorem maxMatNv_spec (h : t.mats ≠ []) :
    ∃ N, t.maxMatNv = .ok N ∧ (∀ e ∈ t.mats, e.2.mle.numVars ≤ N) ∧ ∃ e ∈ t.mats, e.2.mle.numVars = N := by
  unfold maxMatNv
  rcases hm : t.mats with _ | ⟨m, ms⟩
  · exact absurd hm h
  · refine ⟨_, rfl, ?_⟩
    have key : ∀ (ms : List (Nat × ArcMle F)) (n0 : Nat),
        n0 ≤ ms.foldl (fun n e => max n e.2.mle.numVars) n0 ∧
        (∀ e ∈ ms, e.2.mle.numVars ≤ ms.foldl (fun n e => max n e.2.mle.numVars) n0) ∧
        (ms.foldl (fun n e => max n e.2.mle.numVars) n0 = n0 ∨ ∃ e ∈ ms, e.2.mle.numVars = ms.foldl (fun n e => max n e.2.mle.numVars) n0) := by
      intro ms
      induction ms with
      | nil => intro n0; simp
      | cons e ms ih =>
        intro n0
        obtain ⟨h1, h2, h3⟩ := ih (max n0 e.2.mle.numVars)
        simp only [List.foldl_cons]
        refine ⟨le_trans (le_max_left _ _) h1, ?_, ?_⟩
        · intro e' he'
          rcases List.mem_cons.1 he' with rfl | he'
          · exact le_trans (le_max_right _ _) h1
          · exact h2 e' he'
        · rcases h3 with h3 | ⟨e', he', h3⟩
          · rw [h3]
            rcases le_total n0 e.2.mle.numVars with hle | hle
            · exact Or.inr ⟨e, List.mem_cons_self, (max_eq_right hle).symm⟩
            · exact Or.inl (max_eq_left hle)
          · exact Or.inr ⟨e', List.mem_cons_of_mem _ he', h3⟩
    obtain ⟨h1, h2, h3⟩ := key ms m.2.mle.numVars
    refine ⟨?_, ?_⟩
    · intro e he
      rcases List.mem_cons.1 he with rfl | he
      · exact h1
      · exact h2 e he
    · rcases h3 with h3 | ⟨e, he, h3⟩
      · exact ⟨m, List.mem_cons_self, h3.symm⟩
      · exact ⟨e, List.mem_cons_of_mem _ he, h3⟩

theorem lookup_cons_if {α : Type} (i id : Nat) (a : α) (l : List (Nat × α)) :
    ((i, a) :: l).lookup id = if id = i then some a else l.lookup id := by
  rw [List.lookup_cons]
  by_cases h : id = i
  · simp [h]
  · have : (id == i) = false := by simpa using h
    rw [this, if_neg h]

theorem extendMats_spec (N : Nat) (l : List (Nat × ArcMle F)) (hp : Nat) (h : ∀ e ∈ l, e.2.mle.numVars ≤ N) :
    ∃ l' hp', extendMats N l hp = .ok (l', hp') ∧ hp ≤ hp' ∧ (∀ id, l.lookup id = none → l'.lookup id = none) ∧
      (∀ id a, l.lookup id = some a → ∃ a', l'.lookup id = some a' ∧ a'.mle = extMle N a.mle ∧
        ((a' = a ∧ a.mle.numVars = N) ∨ (hp ≤ a'.ptr ∧ a'.ptr < hp' ∧
          ∀ id' b b', l.lookup id' = some b → l'.lookup id' = some b' → (b' = b ∧ b.mle.numVars = N) ∨ (a'.ptr = b'.ptr → a'.mle = b'.mle)))) := by
  induction l generalizing hp with
  | nil => exact ⟨[], hp, rfl, le_refl _, by simp, by simp⟩
  | cons e l ih =>
    obtain ⟨i, a⟩ := e
    have ha : a.mle.numVars ≤ N := h (i, a) List.mem_cons_self
    have hrest : ∀ e ∈ l, e.2.mle.numVars ≤ N := fun e he => h e (List.mem_cons_of_mem _ he)
    by_cases hn : a.mle.numVars = N
    · obtain ⟨l', hp', e1, e2, e3, e4⟩ := ih hp hrest
      refine ⟨(i, a) :: l', hp', ?_, e2, ?_, ?_⟩
      · simp only [extendMats, hn, ne_eq, not_true_eq_false, if_false, e1, ok_bind]
      · intro id hid
        rw [lookup_cons_if] at hid ⊢
        by_cases hk : id = i
        · rw [if_pos hk] at hid; simp at hid
        · rw [if_neg hk] at hid ⊢; exact e3 id hid
      · intro id b hb
        rw [lookup_cons_if] at hb ⊢
        by_cases hk : id = i
        · rw [if_pos hk] at hb ⊢
          injection hb with hb; subst hb
          refine ⟨a, rfl, ?_, Or.inl ⟨rfl, hn⟩⟩
          rw [← hn, extMle_same]
        · rw [if_neg hk] at hb ⊢
          obtain ⟨a', f1, f2, f3⟩ := e4 id b hb
          refine ⟨a', f1, f2, f3.imp (fun h => h) ?_⟩
          rintro ⟨q1, q2, q3⟩
          refine ⟨q1, q2, ?_⟩
          intro id' c c' hc hc'
          rw [lookup_cons_if] at hc hc'
          by_cases hk' : id' = i
          · rw [if_pos hk'] at hc hc'
            injection hc with hc; injection hc' with hc'
            subst hc; exact Or.inl ⟨hc'.symm, hn⟩
          · rw [if_neg hk'] at hc hc'
            exact q3 id' c c' hc hc'
    · obtain ⟨l', hp', e1, e2, e3, e4⟩ := ih (hp + 1) hrest
      obtain ⟨x1, _⟩ := extMle_spec N a.mle ha
      refine ⟨(i, ⟨hp, extMle N a.mle⟩) :: l', hp', ?_, by omega, ?_, ?_⟩
      · simp only [extendMats, hn, ne_eq, not_false_eq_true, if_true, x1, e1, ok_bind]
      · intro id hid
        rw [lookup_cons_if] at hid ⊢
        by_cases hk : id = i
        · rw [if_pos hk] at hid; simp at hid
        · rw [if_neg hk] at hid ⊢; exact e3 id hid
      · intro id b hb
        rw [lookup_cons_if] at hb ⊢
        by_cases hk : id = i
        · rw [if_pos hk] at hb ⊢
          injection hb with hb; subst hb
          refine ⟨_, rfl, rfl, Or.inr ⟨le_refl _, by simp only; omega, ?_⟩⟩
          intro id' c c' hc hc'
          rw [lookup_cons_if] at hc hc'
          by_cases hk' : id' = i
          · rw [if_pos hk'] at hc hc'
            injection hc' with hc'
            subst hc'; exact Or.inr fun _ => rfl
          · rw [if_neg hk'] at hc hc'
            obtain ⟨a', f1, f2, f3⟩ := e4 id' c hc
            rw [f1] at hc'; injection hc' with f1'; subst f1'
            rcases f3 with f3 | f3
            · exact Or.inl f3
            · right; intro e; simp only at e; omega
        · rw [if_neg hk] at hb ⊢
          obtain ⟨a', f1, f2, f3⟩ := e4 id b hb
          refine ⟨a', f1, f2, f3.imp (fun h => h) ?_⟩
          rintro ⟨q1, q2, q3⟩
          refine ⟨by omega, q2, ?_⟩
          intro id' c c' hc hc'
          rw [lookup_cons_if] at hc hc'
          by_cases hk' : id' = i
          · rw [if_pos hk'] at hc hc'
            injection hc' with hc'
            subst hc'
            right; intro e; simp only at e; omega
          · rw [if_neg hk'] at hc hc'
            exact q3 id' c c' hc hc'

/-- What a call that is not about claims, identifiers or commitments leaves alone. -/
structure Same (t t' : PTracker F C) : Prop where
  cnt : t'.idCounter = t.idCounter
  tr : t'.transcript = t.transcript
  comms : t'.comms = t.comms
  sums : t'.sumClaims = t.sumClaims
  zeros : t'.zeroClaims = t.zeroClaims

theorem Same.refl (t : PTracker F C) : Same t t := ⟨rfl, rfl, rfl, rfl, rfl⟩

theorem Same.trans {a b c : PTracker F C} (h1 : Same a b) (h2 : Same b c) : Same a c :=
  ⟨h2.cnt.trans h1.cnt, h2.tr.trans h1.tr, h2.comms.trans h1.comms, h2.sums.trans h1.sums, h2.zeros.trans h1.zeros⟩

/-- All material polynomials extended to `N` variables. -/
structure Ext (N : Nat) (t t' : PTracker F C) : Prop where
  same : Same t t'
  virts : t'.virts = t.virts
  none : ∀ id, t.mats.lookup id = none → t'.mats.lookup id = none
  some : ∀ id a, t.mats.lookup id = some a → a.mle.numVars ≤ N ∧ ∃ a', t'.mats.lookup id = some a' ∧ a'.mle = extMle N a.mle

theorem Ext.some' {N : Nat} (h : Ext N t t') (id : Nat) (a' : ArcMle F) (h' : t'.mats.lookup id = Option.some a') :
    ∃ a, t.mats.lookup id = Option.some a ∧ a.mle.numVars ≤ N ∧ a'.mle = extMle N a.mle := by
  rcases hh : t.mats.lookup id with _ | a
  · rw [h.none id hh] at h'; simp at h'
  · obtain ⟨h1, a'', h2, h3⟩ := h.some id a hh
    rw [h2] at h'; injection h' with h'; subst h'
    exact ⟨a, rfl, h1, h3⟩

theorem extend_ext (hI : Inv R t) {N : Nat} (hN : ∀ e ∈ t.mats, e.2.mle.numVars ≤ N) :
    ∃ l' hp', extendMats N t.mats t.heap = .ok (l', hp') ∧
      Ext N t { t with mats := l', heap := hp' } ∧ Inv anyR { t with mats := l', heap := hp' } := by
  obtain ⟨l', hp', e1, e2, e3, e4⟩ := extendMats_spec N t.mats t.heap hN
  have hle : ∀ id a, t.mats.lookup id = some a → a.mle.numVars ≤ N := by
    intro id a h
    have : (id, a) ∈ t.mats := by
      clear e3 e4 hI e1
      generalize t.mats = l at h
      induction l with
      | nil => simp at h
      | cons e l ih =>
        obtain ⟨i, b⟩ := e
        rw [lookup_cons_if] at h
        by_cases hk : id = i
        · rw [if_pos hk] at h
          injection h with h; subst h
          rw [hk]; exact List.mem_cons_self
        · rw [if_neg hk] at h
          exact List.mem_cons_of_mem _ (ih h)
    exact hN _ this
  have hext : Ext N t { t with mats := l', heap := hp' } :=
    ⟨⟨rfl, rfl, rfl, rfl, rfl⟩, rfl, e3, fun id a h => ⟨hle id a h, by
      obtain ⟨a', h1, h2, _⟩ := e4 id a h
      exact ⟨a', h1, h2⟩⟩⟩
  refine ⟨l', hp', e1, hext, ?_, ?_, ?_, ?_⟩
  · intro id a' h'
    obtain ⟨a, h1, h2, h3⟩ := hext.some' id a' h'
    obtain ⟨o1, o2, o3⟩ := hI.matOk id a h1
    refine ⟨o1, by rw [h3]; exact (extMle_spec N _ h2).2.1 o2, ?_⟩
    obtain ⟨a'', g1, g2, g3⟩ := e4 id a h1
    have : a'' = a' := by
      have h' : l'.lookup id = some a' := h'
      rw [g1] at h'; injection h'
    subst this
    rcases g3 with ⟨g3, _⟩ | g3
    · rw [g3]; exact lt_of_lt_of_le o3 e2
    · exact g3.2.1
  · intro id v hv
    obtain ⟨o1, o2, nv, o3⟩ := hI.virtOk id v hv
    refine ⟨o1, e3 id o2, N, o3.1, fun q hq => ⟨(o3.2 q hq).1, fun m hm => ?_⟩⟩
    obtain ⟨a, b1, b2⟩ := (o3.2 q hq).2 m hm
    obtain ⟨a', b3, b4, _⟩ := e4 m a b1
    exact ⟨a', b3, by rw [b4]; exact (extMle_spec N _ (hle m a b1)).2.2.1⟩
  · intro id a' id' b' ha' hb' e
    obtain ⟨a, h1, h2, h3⟩ := hext.some' id a' ha'
    obtain ⟨b, g1, g2, g3⟩ := hext.some' id' b' hb'
    obtain ⟨a'', x1, _, x3⟩ := e4 id a h1
    obtain ⟨b'', y1, _, y3⟩ := e4 id' b g1
    have ha' : l'.lookup id = some a' := ha'
    have hb' : l'.lookup id' = some b' := hb'
    rw [ha'] at x1; injection x1 with x1; subst x1
    rw [hb'] at y1; injection y1 with y1; subst y1
    rcases x3 with ⟨x3, _⟩ | ⟨x3, x4, x5⟩ <;> rcases y3 with ⟨y3, _⟩ | ⟨y3, y4, y5⟩
    · subst x3 y3; exact hI.ptrs id a' id' b' h1 g1 e
    · subst x3
      have := (hI.matOk id a' h1).2.2; omega
    · subst y3
      have := (hI.matOk id' b' g1).2.2; omega
    · rcases x5 id' b b' g1 hb' with ⟨x5, _⟩ | x5
      · subst x5
        have := (hI.matOk id' b' g1).2.2; omega
      · exact x5 e
  · intro id c hc
    obtain ⟨a, b1, b2⟩ := hI.commOk id c hc
    obtain ⟨_, a', b3, _⟩ := hext.some id a b1
    exact ⟨a', b3, trivial⟩

theorem Ext.hasNv {N id nv : Nat} (hE : Ext N t t') (h : t.HasNv id nv) : nv ≤ N ∧ t'.HasNv id N := by
  rcases h with ⟨a, h1, h2⟩ | ⟨h0, v, h1, h2⟩
  · obtain ⟨g1, a', g2, g3⟩ := hE.some id a h1
    exact ⟨h2 ▸ g1, Or.inl ⟨a', g2, by rw [g3]; exact (extMle_spec N _ g1).2.2.1⟩⟩
  · obtain ⟨q, hq⟩ := List.exists_mem_of_ne_nil _ h2.1
    obtain ⟨m, hm⟩ := List.exists_mem_of_ne_nil _ (h2.2 q hq).1
    obtain ⟨a, e1, e2⟩ := (h2.2 q hq).2 m hm
    refine ⟨e2 ▸ (hE.some m a e1).1, Or.inr ⟨hE.none id h0, v, by rw [hE.virts]; exact h1, h2.1, fun q hq => ⟨(h2.2 q hq).1, fun m hm => ?_⟩⟩⟩
    obtain ⟨a, e1, e2⟩ := (h2.2 q hq).2 m hm
    obtain ⟨g1, a', g2, g3⟩ := hE.some m a e1
    exact ⟨a', g2, by rw [g3]; exact (extMle_spec N _ g1).2.2.1⟩

theorem Ext.gval {N id nv : Nat} (hE : Ext N t t') (h : t.HasNv id nv) (f f' : Mle F → F)
    (hf : ∀ p : Mle F, p.numVars = nv → f' (extMle N p) = f p) : t'.gval f' id = t.gval f id := by
  rcases h with ⟨a, h1, h2⟩ | ⟨h0, v, h1, h2⟩
  · obtain ⟨g1, a', g2, g3⟩ := hE.some id a h1
    simp only [PTracker.gval, h1, g2, g3, hf a.mle h2]
  · have hv : t'.virts.lookup id = Option.some v := by rw [hE.virts]; exact h1
    simp only [PTracker.gval, h0, h1, hE.none id h0, hv]
    apply prodsVal_congr
    intro q hq m hm
    obtain ⟨a, e1, e2⟩ := (h2.2 q hq).2 m hm
    obtain ⟨g1, a', g2, g3⟩ := hE.some m a e1
    simp only [matVal, e1, g2, g3, hf a.mle e2]

theorem Ext.gval_tbl {N id nv : Nat} (hE : Ext N t t') (h : t.HasNv id nv) (b : Nat) (hb : b < 2 ^ N) :
    t'.gval (fun p => p.tbl b) id = t.gval (fun p => p.tbl (b % 2 ^ nv)) id := by
  have hle := (hE.hasNv h).1
  apply hE.gval h
  intro p hp
  rw [(extMle_spec N p (hp ▸ hle)).2.2.2 b hb, hp]

theorem Ext.gval_mle {N id nv : Nat} (hE : Ext N t t') (h : t.HasNv id nv) (x : List F) (hx : x.length = N) :
    t'.gval (fun p => mle p.tbl x) id = t.gval (fun p => mle p.tbl (x.take nv)) id := by
  have hle := (hE.hasNv h).1
  apply hE.gval h
  intro p hp
  rw [extMle_mle N p (hp ▸ hle) x hx, hp]

/-! ### The claimed sums -/

/-- The sum over the cube. -/
def tsum (t : PTracker F C) (N id : Nat) : F := ((List.range (2 ^ N)).map fun b => t.gval (fun p => p.tbl b) id).sum

theorem same_matSt (t : PTracker F C) (id nv : Nat) : Same t (t.matSt id nv) := by
  unfold matSt
  split
  · exact Same.refl t
  · split
    · exact ⟨rfl, rfl, rfl, rfl, rfl⟩
    · exact Same.refl t

theorem gval_matSt_other' {id nv id' nv' : Nat} (h : t.HasNv id nv) (h' : t.HasNv id' nv')
    (hne : id' ≠ id) (f : Mle F → F) : (t.matSt id nv).gval f id' = t.gval f id' :=
  gval_matSt_other (st := ⟨t, []⟩) h h' hne f

theorem Pres.tsum {N id : Nat} (hp : Pres t t') (h : t.HasNv id N) : t'.tsum N id = t.tsum N id := by
  unfold PTracker.tsum
  congr 1
  apply List.map_congr_left
  intro b hb
  exact hp.cube id N b h (List.mem_range.1 hb)

theorem trueSums_run {N : Nat} (claims : List (Nat × F)) (hI : Inv R t) (hc : ∀ c ∈ claims, t.HasNv c.1 N) :
    ∃ t', trueSums claims t = (.ok (claims.map fun c => t.tsum N c.1), t') ∧ Inv R t' ∧ Pres t t' ∧ Same t t' ∧
      (∀ id nv, t.HasNv id nv → id ∉ claims.map (·.1) → ∀ f, t'.gval f id = t.gval f id) ∧ ∀ c ∈ claims, (t'.mats.lookup c.1).isSome := by
  induction claims generalizing t with
  | nil => exact ⟨t, rfl, hI, Pres.refl t, Same.refl t, fun _ _ _ _ _ => rfl, by simp⟩
  | cons c cs ih =>
    have h := hc c List.mem_cons_self
    obtain ⟨hI1, hp1, q, hq, _⟩ := matSt_spec hI h
    have hs1 := same_matSt t c.1 N
    obtain ⟨t', e, hI', hp', hs', ho', hm'⟩ := ih hI1 (fun c' h' => hp1.nv _ _ (hc c' (List.mem_cons_of_mem _ h')))
    refine ⟨t', ?_, hI', hp1.trans hp', hs1.trans hs', ?_, fun c' hc' => ?_⟩
    · unfold trueSums
      rw [Act.bind_ok (evaluations_run hI h), Act.bind_ok e, Act.pure_run, List.map_cons]
      congr 3
      apply List.map_congr_left
      intro c' h'
      exact hp1.tsum (hc c' (List.mem_cons_of_mem _ h'))
    · intro id nv hid hni f
      simp only [List.map_cons, List.mem_cons, not_or] at hni
      rw [ho' id nv (hp1.nv _ _ hid) hni.2, gval_matSt_other' h hid hni.1]
    · rcases List.mem_cons.1 hc' with rfl | hc'
      · rw [hp'.mats _ _ hq]; rfl
      · exact hm' c' hc'

theorem equalize_run (hI : Inv R t) (hm : t.mats ≠ []) (hc : ∀ c ∈ t.sumClaims, ∃ nv, t.HasNv c.1 nv) :
    ∃ N t1 t', (∀ e ∈ t.mats, e.2.mle.numVars ≤ N) ∧ (∃ e ∈ t.mats, e.2.mle.numVars = N) ∧ Ext N t t1 ∧ Inv anyR t1 ∧
      equalize t = (.ok N, t') ∧ Inv anyR t' ∧ Pres t1 t' ∧
      t'.idCounter = t.idCounter ∧ t'.transcript = t.transcript ∧ t'.comms = t.comms ∧ t'.zeroClaims = t.zeroClaims ∧
      t'.sumClaims = t.sumClaims.map (fun c => (c.1, t1.tsum N c.1)) ∧
      (∀ id nv, t1.HasNv id nv → id ∉ t.sumClaims.map (·.1) → ∀ f, t'.gval f id = t1.gval f id) ∧
      ∀ c ∈ t.sumClaims, (t'.mats.lookup c.1).isSome := by
  obtain ⟨N, hN, hle, hex⟩ := maxMatNv_spec hm
  obtain ⟨l', hp', e1, hE, hI1⟩ := extend_ext hI hle
  have hc1 : ∀ c ∈ t.sumClaims, PTracker.HasNv { t with mats := l', heap := hp' } c.1 N := fun c h => by
    obtain ⟨nv, hnv⟩ := hc c h
    exact (hE.hasNv hnv).2
  obtain ⟨t2, e2, hI2, hp2, hs2, ho2, hm2⟩ := trueSums_run t.sumClaims hI1 hc1
  refine ⟨N, _, { t2 with sumClaims := t.sumClaims.map (fun c => (c.1, PTracker.tsum { t with mats := l', heap := hp' } N c.1)) }, hle, hex, hE, hI1, ?_,
    ⟨hI2.matOk, hI2.virtOk, hI2.ptrs, hI2.commOk⟩, ⟨hp2.cnt, hp2.nv, hp2.cube, hp2.mats⟩, hs2.cnt, hs2.tr, hs2.comms, hs2.zeros, rfl, ho2, hm2⟩
  unfold equalize
  rw [Act.bind_ok (a := N) (s' := t) (by simp [hN]), Act.bind_ok (a := (l', hp')) (s' := t) (by simp [e1]),
    Act.bind_ok (Act.modify_run _ _), Act.reads_bind, Act.bind_ok e2,
    Act.bind_ok (Act.modify_run _ _), Act.pure_run]
  have : t2.sumClaims = t.sumClaims := hs2.sums
  simp only [this, List.zipWith_map_right, List.zipWith_self]

/-! ### Folding claims -/

/-- `Σ cᵢ vᵢ`. -/
def lincomb (cs vs : List F) : F := (List.zipWith (· * ·) cs vs).sum

theorem challengeU_run (H : Oracle F C) (label : String) (h : t.transcript.isEmpty = false) :
    challengeU H label t = (.ok (chalStep H t.transcript label).1, { t with transcript := (chalStep H t.transcript label).2 }) := by
  apply Act.expect_ok
  simp only [challenge, challenge_ok H t.transcript label h]

theorem inv_tr (hI : Inv R t) (tr : Transcript F C) : Inv R { t with transcript := tr } :=
  ⟨hI.matOk, hI.virtOk, hI.ptrs, hI.commOk⟩

theorem keep_tr (t : PTracker F C) (tr : Transcript F C) : Keep t { t with transcript := tr } :=
  ⟨le_refl _, fun _ _ h => h, fun _ _ h => h, fun _ _ h => h⟩

/-- One challenge, one scaled polynomial, one sum. -/
theorem foldStep_run (H : Oracle F C) (label : String) {N c agg : Nat} (hI : Inv R t) (hne : t.transcript.isEmpty = false)
    (hc : t.HasNv c N) (ha : t.HasNv agg N) (k : F → Nat → Act (PTracker F C) β) :
    ∃ t', (challengeU H label >>= fun ch => mulScalar c ch >>= fun p => addSubPolys agg p false >>= fun a => k ch a) t =
        k (chalStep H t.transcript label).1 (t.idCounter + 1) t' ∧
      Inv R t' ∧ Keep t t' ∧ t'.idCounter = t.idCounter + 2 ∧ t'.transcript = (chalStep H t.transcript label).2 ∧
      t'.comms = t.comms ∧ t'.sumClaims = t.sumClaims ∧ t'.zeroClaims = t.zeroClaims ∧ t'.HasNv (t.idCounter + 1) N ∧
      ∀ f, t'.gval f (t.idCounter + 1) = t.gval f agg + (chalStep H t.transcript label).1 * t.gval f c := by
  have hI0 := inv_tr hI (chalStep H t.transcript label).2
  obtain ⟨v, e1, hv, hval⟩ := mulScalar_run (t := { t with transcript := (chalStep H t.transcript label).2 }) hI0 hc (chalStep H t.transcript label).1
  have hI1 := inv_pushVirt hI0 v hv
  have hk1 := keep_pushVirt hI0 v
  have ha1 := HasNv.keep hI0 hk1 ha
  have hp1 := hasNv_pushVirt hI0 hv
  obtain ⟨w, e2, hw, hwal⟩ := addSubPolys_run hI1 ha1 hp1 false
  refine ⟨_, ?_, inv_pushVirt hI1 w hw, ((keep_tr t _).trans hk1).trans (keep_pushVirt hI1 w), rfl, rfl, rfl, rfl, rfl, hasNv_pushVirt hI1 hw, ?_⟩
  · rw [Act.bind_ok (challengeU_run H label hne), Act.bind_ok e1, Act.bind_ok e2]
    rfl
  · intro f
    refine (gval_pushVirt hI1 f).trans ?_
    rw [hwal f, if_neg (by simp), gval_keep hI0 hk1 ha f, gval_pushVirt hI0 f, hval f]
    rfl

theorem foldZeroClaims_run (H : Oracle F C) {N : Nat} (claims : List Nat) {agg : Nat} (hI : Inv R t) (hne : t.transcript.isEmpty = false)
    (hc : ∀ c ∈ claims, t.HasNv c N) (ha : t.HasNv agg N) :
    ∃ cs tr' agg' t', t.transcript.challengeLoop H "zerocheck challenge" claims.length = .ok (cs, tr') ∧
      cs.length = claims.length ∧ tr'.isEmpty = false ∧ foldZeroClaims H claims agg t = (.ok agg', t') ∧
      Inv R t' ∧ Keep t t' ∧ t'.idCounter = t.idCounter + 2 * claims.length ∧ t'.transcript = tr' ∧
      t'.comms = t.comms ∧ t'.sumClaims = t.sumClaims ∧ t'.zeroClaims = t.zeroClaims ∧ t'.HasNv agg' N ∧
      ∀ f, t'.gval f agg' = t.gval f agg + lincomb cs (claims.map (t.gval f)) := by
  induction claims generalizing t agg with
  | nil => exact ⟨[], t.transcript, agg, t, rfl, rfl, hne, rfl, hI, Keep.refl t, rfl, rfl, rfl, rfl, rfl, ha, by simp [lincomb]⟩
  | cons c rest ih =>
    have hc0 := hc c List.mem_cons_self
    obtain ⟨t1, e1, hI1, hk1, hcnt1, htr1, hcm1, hs1, hz1, hn1, hv1⟩ := foldStep_run H "zerocheck challenge" hI hne hc0 ha
      (fun _ a => foldZeroClaims H rest a)
    obtain ⟨cs, tr', agg', t', f1, f2, f3, f4, f5, f6, f7, f8, f9, f10, f11, f12, f13⟩ := ih hI1 (by rw [htr1]; rfl)
      (fun c' h' => (hc c' (List.mem_cons_of_mem _ h')).keep hI hk1) hn1
    refine ⟨(chalStep H t.transcript "zerocheck challenge").1 :: cs, tr', agg', t', ?_, by simp [f2], f3, ?_, f5, hk1.trans f6, ?_, f8,
      f9.trans hcm1, f10.trans hs1, f11.trans hz1, f12, ?_⟩
    · rw [htr1] at f1
      simp only [List.length_cons, Transcript.challengeLoop, challenge_ok H t.transcript _ hne, ok_bind, f1]
    · exact e1.trans f4
    · rw [f7, hcnt1, List.length_cons]; omega
    · intro f
      rw [f13 f, hv1 f]
      have : rest.map (t1.gval f) = rest.map (t.gval f) := List.map_congr_left fun c' h' =>
        gval_keep hI hk1 (hc c' (List.mem_cons_of_mem _ h')) f
      rw [this]
      simp only [lincomb, List.map_cons, List.zipWith_cons_cons, List.sum_cons]
      ring

theorem foldSumClaims_run (H : Oracle F C) {N : Nat} (claims : List (Nat × F)) {agg : Nat} (s : F) (hI : Inv R t)
    (hne : t.transcript.isEmpty = false) (hc : ∀ c ∈ claims, t.HasNv c.1 N) (ha : t.HasNv agg N) :
    ∃ cs tr' agg' t', t.transcript.challengeLoop H "sumcheck challenge" claims.length = .ok (cs, tr') ∧
      cs.length = claims.length ∧ tr'.isEmpty = false ∧
      foldSumClaims H claims agg s t = (.ok (agg', s + lincomb cs (claims.map (·.2))), t') ∧
      Inv R t' ∧ Keep t t' ∧ t'.idCounter = t.idCounter + 2 * claims.length ∧ t'.transcript = tr' ∧
      t'.comms = t.comms ∧ t'.sumClaims = t.sumClaims ∧ t'.zeroClaims = t.zeroClaims ∧ t'.HasNv agg' N ∧
      ∀ f, t'.gval f agg' = t.gval f agg + lincomb cs (claims.map fun c => t.gval f c.1) := by
  induction claims generalizing t agg s with
  | nil =>
    exact ⟨[], t.transcript, agg, t, rfl, rfl, hne, by simp [foldSumClaims, lincomb], hI, Keep.refl t, rfl, rfl, rfl, rfl, rfl, ha, by simp [lincomb]⟩
  | cons c rest ih =>
    have hc0 := hc c List.mem_cons_self
    obtain ⟨t1, e1, hI1, hk1, hcnt1, htr1, hcm1, hs1, hz1, hn1, hv1⟩ := foldStep_run H "sumcheck challenge" hI hne hc0 ha
      (fun ch a => foldSumClaims H rest a (s + c.2 * ch))
    obtain ⟨cs, tr', agg', t', f1, f2, f3, f4, f5, f6, f7, f8, f9, f10, f11, f12, f13⟩ := ih
      (s + c.2 * (chalStep H t.transcript "sumcheck challenge").1) hI1 (by rw [htr1]; rfl)
      (fun c' h' => (hc c' (List.mem_cons_of_mem _ h')).keep hI hk1) hn1
    refine ⟨(chalStep H t.transcript "sumcheck challenge").1 :: cs, tr', agg', t', ?_, by simp [f2], f3, ?_, f5, hk1.trans f6, ?_, f8,
      f9.trans hcm1, f10.trans hs1, f11.trans hz1, f12, ?_⟩
    · rw [htr1] at f1
      simp only [List.length_cons, Transcript.challengeLoop, challenge_ok H t.transcript _ hne, ok_bind, f1]
    · refine (e1.trans f4).trans ?_
      simp only [lincomb, List.map_cons, List.zipWith_cons_cons, List.sum_cons]
      congr 3
      ring
    · rw [f7, hcnt1, List.length_cons]; omega
    · intro f
      rw [f13 f, hv1 f]
      have : rest.map (fun c => t1.gval f c.1) = rest.map (fun c => t.gval f c.1) := List.map_congr_left fun c' h' =>
        gval_keep hI hk1 (hc c' (List.mem_cons_of_mem _ h')) f
      rw [this]
      simp only [lincomb, List.map_cons, List.zipWith_cons_cons, List.sum_cons]
      ring

theorem zeroMle_ok (nv : Nat) : zeroMle nv = .ok (constMle nv (0 : F)) := by
  simp [zeroMle, Mle.fromEvals, constMle]

theorem convertZero_run (H : Oracle F C) {N : Nat} (hN : N ≠ 0) (hI : Inv R t) (hne : t.transcript.isEmpty = false)
    (hc : ∀ c ∈ t.zeroClaims, t.HasNv c N) :
    ∃ cs tr1 r tr2 t', t.transcript.challengeLoop H "zerocheck challenge" t.zeroClaims.length = .ok (cs, tr1) ∧
      cs.length = t.zeroClaims.length ∧ tr1.challenges H "0check r" N = .ok (r, tr2) ∧ r.length = N ∧ tr2.isEmpty = false ∧
      convertZero H N t = (.ok (), t') ∧ Inv R t' ∧ Keep t t' ∧ t'.idCounter = t.idCounter + 2 * t.zeroClaims.length + 3 ∧
      t'.transcript = tr2 ∧ t'.comms = t.comms ∧ t'.zeroClaims = t.zeroClaims ∧
      t'.sumClaims = t.sumClaims ++ [(t.idCounter + 2 * t.zeroClaims.length + 2, 0)] ∧
      t'.HasNv (t.idCounter + 2 * t.zeroClaims.length + 2) N ∧
      ∀ f, t'.gval f (t.idCounter + 2 * t.zeroClaims.length + 2) =
        (f (constMle N 0) + lincomb cs (t.zeroClaims.map (t.gval f))) * f (eqMle r) := by
  have hI0 := inv_pushMat hI _ (constMle_wf N (0 : F))
  have hk0 := keep_pushMat hI (constMle N (0 : F))
  have hn0 := hasNv_pushMat t (constMle N (0 : F))
  obtain ⟨cs, tr1, agg, t1, f1, f2, f3, f4, f5, f6, f7, f8, f9, f10, f11, f12, f13⟩ := foldZeroClaims_run (t := t.pushMat (constMle N 0)) H
    t.zeroClaims hI0 hne (fun c h => (hc c h).keep hI hk0) hn0
  obtain ⟨r, tr2, g1, g2, g3⟩ := challenges_ok H "0check r" N tr1 f3
  have hr : r ≠ [] := by rintro rfl; simp at g2; omega
  have hI2 := inv_tr f5 tr2
  have hI3 := inv_pushMat hI2 _ (eqMle_wf r)
  have hk3 := keep_pushMat hI2 (eqMle r)
  have hn3 := hasNv_pushMat { t1 with transcript := tr2 } (eqMle r)
  have hn3' : (eqMle r).numVars = N := g2
  rw [hn3'] at hn3
  have ha3 : (PTracker.pushMat { t1 with transcript := tr2 } (eqMle r)).HasNv agg N := HasNv.keep hI2 hk3 f12
  obtain ⟨v, e1, hv, hval⟩ := mulPolys_run hI3 ha3 hn3
  have hcnt : (PTracker.pushMat { t1 with transcript := tr2 } (eqMle r)).idCounter = t.idCounter + 2 * t.zeroClaims.length + 2 := by
    show t1.idCounter + 1 = _
    rw [f7]
    show t.idCounter + 1 + _ + 1 = _
    omega
  have hI4 := inv_pushVirt hI3 v hv
  have hk4 := keep_pushVirt hI3 v
  have hn4 := hasNv_pushVirt hI3 hv
  have hg4 := fun f => gval_pushVirt (v := v) hI3 f
  rw [hcnt] at hn4 e1
  simp only [hcnt] at hg4
  refine ⟨cs, tr1, r, tr2, { (PTracker.pushMat { t1 with transcript := tr2 } (eqMle r)).pushVirt v with
      sumClaims := t1.sumClaims ++ [(t.idCounter + 2 * t.zeroClaims.length + 2, 0)] }, f1, f2, g1, g2, g3, ?_, ⟨hI4.matOk, hI4.virtOk, hI4.ptrs, hI4.commOk⟩, ?_, ?_, rfl, ?_, ?_, ?_, hn4, ?_⟩
  · unfold convertZero
    rw [Act.bind_ok (a := constMle N 0) (s' := t) (by simp [zeroMle_ok]), Act.bind_ok (trackMat_run _ t),
      Act.reads_bind, show (t.pushMat (constMle N 0)).zeroClaims = t.zeroClaims from rfl, Act.bind_ok f4,
      Act.bind_ok (a := r) (s' := { t1 with transcript := tr2 }) (by simp only [challengesU, f8, g1]),
      Act.bind_ok (a := eqMle r) (s' := { t1 with transcript := tr2 }) (Act.expect_ok (by rw [Act.lift_run, buildEq_spec r hr])),
      Act.bind_ok (trackMat_run _ _)]
    have e1' : mulPolys agg { t1 with transcript := tr2 }.idCounter (PTracker.pushMat { t1 with transcript := tr2 } (eqMle r)) = _ := e1
    rw [Act.bind_ok e1']
    rfl
  · have := ((hk0.trans f6).trans (keep_tr t1 tr2)).trans (hk3.trans hk4)
    exact ⟨this.cnt, this.mats, this.virts, this.fresh⟩
  · show t1.idCounter + 1 + 1 = _
    rw [f7]; show t.idCounter + 1 + _ + 1 + 1 = _
    omega
  · exact f9
  · exact f11
  · show t1.sumClaims ++ _ = _
    rw [f10]; rfl
  · intro f
    refine (hg4 f).trans ?_
    rw [hval f, gval_keep hI2 hk3 (t := { t1 with transcript := tr2 }) f12 f, gval_pushMat]
    congr 1
    refine (f13 f).trans ?_
    rw [gval_pushMat]
    congr 2
    exact List.map_congr_left fun c h => gval_keep hI hk0 (hc c h) f

theorem aggregate_run (H : Oracle F C) (hI : Inv R t) (hm : ∃ e ∈ t.mats, e.2.mle.numVars ≠ 0)
    (hne : t.transcript.isEmpty = false)
    (hs : ∀ c ∈ t.sumClaims, ∃ nv, t.HasNv c.1 nv) (hz : ∀ c ∈ t.zeroClaims, ∃ nv, t.HasNv c nv) :
    ∃ N te cs tr1 r tr2 ds tr3 agg t', N ≠ 0 ∧ equalize t = (.ok N, te) ∧
      t.transcript.challengeLoop H "zerocheck challenge" t.zeroClaims.length = .ok (cs, tr1) ∧ cs.length = t.zeroClaims.length ∧
      tr1.challenges H "0check r" N = .ok (r, tr2) ∧ r.length = N ∧
      tr2.challengeLoop H "sumcheck challenge" (t.sumClaims.length + 1) = .ok (ds, tr3) ∧ ds.length = t.sumClaims.length + 1 ∧
      tr3.isEmpty = false ∧
      aggregate H t = (.ok (agg, lincomb ds (te.sumClaims.map (·.2) ++ [0])), t') ∧
      Inv anyR t' ∧ Keep te t' ∧ t'.idCounter = t.idCounter + 2 * t.zeroClaims.length + 2 * t.sumClaims.length + 6 ∧
      t'.transcript = tr3 ∧ t'.comms = t.comms ∧ t'.zeroClaims = t.zeroClaims ∧
      t'.sumClaims = te.sumClaims ++ [(t.idCounter + 2 * t.zeroClaims.length + 2, 0)] ∧ t'.HasNv agg N ∧
      (∀ c ∈ te.sumClaims, te.HasNv c.1 N) ∧ (∀ c ∈ t.zeroClaims, te.HasNv c N) ∧
      ∀ f, t'.gval f agg = f (constMle N 0) + lincomb ds ((te.sumClaims.map fun c => te.gval f c.1) ++
        [(f (constMle N 0) + lincomb cs (t.zeroClaims.map (te.gval f))) * f (eqMle r)]) := by
  obtain ⟨e0, he0, hnz⟩ := hm
  obtain ⟨N, t1, te, hle, hex, hE, hI1, heq, hIe, hpe, hcnt, htr, hcm, hzc, hsc, _⟩ := equalize_run hI (by rintro h; rw [h] at he0; simp at he0) hs
  have hN : N ≠ 0 := by have := hle e0 he0; omega
  have hse : ∀ c ∈ te.sumClaims, te.HasNv c.1 N := by
    intro c h
    rw [hsc] at h
    obtain ⟨c', h', rfl⟩ := List.mem_map.1 h
    obtain ⟨nv, hnv⟩ := hs c' h'
    exact hpe.nv _ _ (hE.hasNv hnv).2
  have hze : ∀ c ∈ t.zeroClaims, te.HasNv c N := fun c h => by
    obtain ⟨nv, hnv⟩ := hz c h
    exact hpe.nv _ _ (hE.hasNv hnv).2
  obtain ⟨cs, tr1, r, tr2, t2, c1, c2, c3, c4, c5, c6, c7, c8, c9, c10, c11, c12, c13, c14, c15⟩ :=
    convertZero_run (t := te) H hN hIe (by rw [htr]; exact hne) (by rw [hzc]; exact hze)
  rw [htr, hzc] at c1
  rw [hzc] at c2 c9 c12
  rw [hzc, hcnt] at c13 c14
  simp only [hzc, hcnt] at c15
  have hI3 := inv_pushMat c7 _ (constMle_wf N (0 : F))
  have hk3 := keep_pushMat c7 (constMle N (0 : F))
  have hn3 := hasNv_pushMat t2 (constMle N (0 : F))
  obtain ⟨ds, tr3, agg, t', f1, f2, f3, f4, f5, f6, f7, f8, f9, f10, f11, f12, f13⟩ := foldSumClaims_run (t := t2.pushMat (constMle N 0)) H
    t2.sumClaims 0 hI3 (by show t2.transcript.isEmpty = false; rw [c10]; exact c5)
    (fun c h => by
      rw [c13] at h
      rcases List.mem_append.1 h with h | h
      · exact ((hse c h).keep hIe c8).keep c7 hk3
      · obtain rfl : c = _ := by simpa using h
        exact c14.keep c7 hk3) hn3
  have hlen : t2.sumClaims.length = t.sumClaims.length + 1 := by rw [c13, hsc]; simp
  rw [hlen] at f1 f2 f7
  have f1' : t2.transcript.challengeLoop H "sumcheck challenge" (t.sumClaims.length + 1) = .ok (ds, tr3) := f1
  rw [c10] at f1'
  refine ⟨N, te, cs, tr1, r, tr2, ds, tr3, agg, t', hN, heq, c1, c2, c3, c4, f1', f2, f3, ?_, f5, (c8.trans hk3).trans f6, ?_, f8, f9.trans (c11.trans hcm),
    f11.trans c12, f10.trans c13, f12, hse, hze, ?_⟩
  · unfold aggregate
    rw [Act.bind_ok heq, Act.bind_ok c6, Act.bind_ok (a := constMle N 0) (s' := t2) (by simp [zeroMle_ok]), Act.bind_ok (trackMat_run _ _),
      Act.reads_bind, show (t2.pushMat (constMle N 0)).sumClaims = t2.sumClaims from rfl]
    refine f4.trans ?_
    rw [c13, List.map_append, zero_add]; rfl
  · rw [f7]
    show t2.idCounter + 1 + _ = _
    rw [c9, hcnt]; omega
  · intro f
    rw [f13 f, gval_pushMat, c13, List.map_append]
    congr 3
    · exact List.map_congr_left fun c h => (gval_keep c7 hk3 ((hse c h).keep hIe c8) f).trans (gval_keep hIe c8 (hse c h) f)
    · simp only [List.map_cons, List.map_nil]
      rw [gval_keep c7 hk3 c14 f, c15 f]

end PTracker
end Zksql
