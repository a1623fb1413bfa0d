import Verif.Lemmas.Mle2
import Mathlib.Data.List.Perm.Basic
/-! Helper lemmas: merging, random lists and permutations. -/
namespace Zksql
open Spec
variable {F : Type} [Field F]

theorem flatten_length_const {α : Type*} (ls : List (List α)) (c : Nat) (h : ∀ l ∈ ls, l.length = c) :
    ls.flatten.length = ls.length * c := by
  induction ls with
  | nil => simp
  | cons l ls ih =>
    simp only [List.flatten_cons, List.length_append, List.length_cons]
    rw [ih (fun l hl => h l (List.mem_cons_of_mem _ hl)), h l (List.mem_cons_self)]
    ring

theorem flatten_getD {α : Type*} (ls : List (List α)) (c : Nat) (h : ∀ l ∈ ls, l.length = c) (i j : Nat)
    (hi : i < ls.length) (hj : j < c) (d : α) :
    ls.flatten.getD (i * c + j) d = (ls[i]).getD j d := by
  induction ls generalizing i with
  | nil => simp at hi
  | cons l ls ih =>
    have hl : l.length = c := h l (List.mem_cons_self)
    rw [List.flatten_cons]
    cases i with
    | zero =>
      rw [List.getD_append _ _ _ _ (by omega)]; simp
    | succ i =>
      have e : (i + 1) * c + j = l.length + (i * c + j) := by rw [hl]; ring
      rw [e, List.getD_append_right _ _ _ _ (by omega)]
      simp only [Nat.add_sub_cancel_left, List.getElem_cons_succ]
      exact ih (fun l hl => h l (List.mem_cons_of_mem _ hl)) i (by simpa using hi)

theorem mapM_ok {α β : Type*} (l : List α) (f : α → Res β) (g : α → β)
    (h : ∀ x ∈ l, f x = .ok (g x)) : l.mapM f = .ok (l.map g) := by
  induction l with
  | nil => rfl
  | cons a l ih =>
    rw [List.mapM_cons, h a (List.mem_cons_self),
      ih (fun x hx => h x (List.mem_cons_of_mem _ hx))]
    rfl

theorem foldl_add_eq_sum (n : Nat) (g : Nat → F) (s : F) :
    (List.range n).foldl (fun s i => s + g i) s = s + ∑ i ∈ Finset.range n, g i := by
  induction n with
  | zero => simp
  | succ n ih => rw [List.range_succ, List.foldl_append, ih, Finset.sum_range_succ]; simp [add_assoc]

theorem foldl_mul_eq_prod (n : Nat) (g : Nat → F) (s : F) :
    (List.range n).foldl (fun s i => s * g i) s = s * ∏ i ∈ Finset.range n, g i := by
  induction n with
  | zero => simp
  | succ n ih => rw [List.range_succ, List.foldl_append, ih, Finset.prod_range_succ]; simp [mul_assoc]

theorem list_prod_range (n : Nat) (g : Nat → F) :
    ((List.range n).map g).prod = ∏ i ∈ Finset.range n, g i := by
  induction n with
  | zero => simp
  | succ n ih => rw [List.range_succ, List.map_append, List.prod_append, ih, Finset.prod_range_succ]; simp

theorem drawAll_perm {α : Type*} (tape : Nat → Nat) (k : Nat) (pool : List α) :
    List.Perm (drawAll tape pool.length k pool) pool := by
  generalize hn : pool.length = n
  induction n generalizing k pool with
  | zero =>
    have : pool = [] := List.length_eq_zero_iff.1 hn
    subst this; simp [drawAll]
  | succ n ih =>
    have hlt : tape k % pool.length < pool.length := Nat.mod_lt _ (by omega)
    rw [drawAll, List.getElem?_eq_getElem hlt]
    simp only
    refine List.Perm.trans (List.Perm.cons _ (ih (k + 1) _ ?_)) ?_
    · rw [List.length_eraseIdx_of_lt hlt]; omega
    · exact List.getElem_cons_eraseIdx_perm hlt

end Zksql
