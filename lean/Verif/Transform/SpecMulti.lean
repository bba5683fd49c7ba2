import Mathlib.Data.Complex.Basic
import Mathlib.Algebra.Order.AbsoluteValue.Basic

/-! # Specification of repeated transforms

A numerical transform is a procedure that asks for values of the function at points of its choice and in the end answers with a value and an
error estimate.  Nothing here refers to the code. -/

namespace Geotecha.Transform

inductive Strat where
  | done (v : ℂ) (e : ℝ)
  | ask (x : ℂ) (k : ℂ → Strat)

namespace Spec
namespace Strat
open Geotecha.Transform.Strat

/-- The answer when the function is `g`. -/
def value : Strat → (ℂ → ℂ) → ℂ
  | done v _, _ => v
  | ask x k, g => value (k (g x)) g

/-- The error estimate when the function is `g`. -/
def err : Strat → (ℂ → ℂ) → ℝ
  | done _ e, _ => e
  | ask x k, g => err (k (g x)) g

/-- The points asked for when the function is `g`. -/
def asked : Strat → (ℂ → ℂ) → List ℂ
  | done _ _, _ => []
  | ask x k, g => x :: asked (k (g x)) g

end Strat

/-- Transforms carried out one after the other, the first of the list over the first argument of `f` (innermost), and so on.  Each may depend
on the arguments that are still left. -/
def nested : List (List ℂ → Strat) → (List ℂ → ℂ) → List ℂ → ℂ
  | [], f => f
  | S :: Ss, f => nested Ss fun args => Strat.value (S args) fun x => f (x :: args)

/-- All error estimates that come up on the way; `E args` are those that come up in finding `f args`. -/
noncomputable def nestedErrs : List (List ℂ → Strat) → (List ℂ → ℂ) → (List ℂ → List ℝ) → List ℂ → List ℝ
  | [], _, E => E
  | S :: Ss, f, E => nestedErrs Ss (fun args => Strat.value (S args) fun x => f (x :: args))
      fun args => Strat.err (S args) (fun x => f (x :: args)) ::
        (Strat.asked (S args) fun x => f (x :: args)).flatMap fun x => E (x :: args)

/-- `m` is the largest of the absolute values of a list, and `0` for the empty list. -/
def IsMaxAbs (l : List ℝ) (m : ℝ) : Prop := (∀ e ∈ l, |e| ≤ m) ∧ (l = [] ∧ m = 0 ∨ ∃ e ∈ l, m = |e|)

end Spec
end Geotecha.Transform
