import Verif.Piecewise.Model
import Mathlib.Analysis.SpecialFunctions.Integrals.Basic
import Mathlib.MeasureTheory.Integral.IntegralEqImproper
import Mathlib.Analysis.SpecialFunctions.Complex.Circle

/-!
# Model of geotecha/mathematics/fourier.py: `FourierTransform`

Reals for floats.  `scipy.integrate.quad` with `weight='cos'` or `'sin'` is the exact integral of the product; its error estimates are not
modelled.  `quad` converts what the function returns to a float: this is an error for a Python `complex` and drops the imaginary part of a
`numpy.complex128` (with a warning).
-/

open Real
namespace Geotecha.Transform
open Geotecha (PyErr)

/-- Type of the values that the function handed to `FourierTransform` returns. -/
inductive ValTy where
  | real
  | numpyComplex
  | pyComplex
  deriving DecidableEq

/-- `FourierTransform.__init__`, fourier.py:325-357: the arguments.  `b = none` is `np.inf`. -/
structure Fourier where
  f : ℝ → ℂ
  ty : ValTy
  inv : Bool
  isReal : Bool
  isImag : Bool
  realEven : Bool
  realOdd : Bool
  imagEven : Bool
  imagOdd : Bool
  a : ℝ
  b : Option ℝ

namespace Fourier

/-- `scipy.integrate.quad(func, a, b)` (exact; see the head of the file). -/
noncomputable def quad (g : ℝ → ℝ) (a : ℝ) (b : Option ℝ) : ℝ :=
  match b with
  | none => ∫ x in Set.Ioi a, g x
  | some b => ∫ x in a..b, g x

/-- `cosine_transform`, fourier.py:209-246, of a function that returns floats. -/
noncomputable def cosT (o : Fourier) (g : ℝ → ℝ) (s : ℝ) : ℝ := quad (fun x => g x * cos (s * x)) o.a o.b

/-- `sine_transform`, fourier.py:248-285, of a function that returns floats. -/
noncomputable def sinT (o : Fourier) (g : ℝ → ℝ) (s : ℝ) : ℝ := quad (fun x => g x * sin (s * x)) o.a o.b

/-- `cosine_transform` of `self.func` or `self.mfe`: the values are converted to floats. -/
noncomputable def cosTF (o : Fourier) (g : ℝ → ℂ) (s : ℝ) : Except PyErr ℝ :=
  if o.ty = .pyComplex then .error .typeError else .ok (o.cosT (fun x => (g x).re) s)

/-- `sine_transform` of `self.func` or `self.mfo`: the values are converted to floats. -/
noncomputable def sinTF (o : Fourier) (g : ℝ → ℂ) (s : ℝ) : Except PyErr ℝ :=
  if o.ty = .pyComplex then .error .typeError else .ok (o.sinT (fun x => (g x).re) s)

/-- `self.inv_const`, fourier.py:335-340. -/
noncomputable def invConst (o : Fourier) : ℝ := if o.inv then (2 * π)⁻¹ else 1

/-- `self.inv_sign`, fourier.py:335-340. -/
def invSign (o : Fourier) : ℝ := if o.inv then -1 else 1

/-- `mfe`, fourier.py:367-369 with `func_mirror_for_even_weight`, 118-160. -/
def mfe (o : Fourier) : ℝ → ℂ := fun x => o.f (-x)

/-- `mfo`, fourier.py:370-372 with `func_mirror_for_odd_weight`, 162-206. -/
def mfo (o : Fourier) : ℝ → ℂ := fun x => -o.f (-x)

/-- `real_func`, fourier.py:359-361. -/
def realFunc (o : Fourier) : ℝ → ℝ := fun x => (o.f x).re

/-- `imag_func`, fourier.py:362-364. -/
def imagFunc (o : Fourier) : ℝ → ℝ := fun x => (o.f x).im

/-- `mfre`, fourier.py:373-375. -/
def mfre (o : Fourier) : ℝ → ℝ := fun x => (o.mfe x).re

/-- `mfro`, fourier.py:376-378. -/
def mfro (o : Fourier) : ℝ → ℝ := fun x => (o.mfo x).re

/-- `mfie`, fourier.py:379-381. -/
def mfie (o : Fourier) : ℝ → ℝ := fun x => (o.mfe x).im

/-- `mfio`, fourier.py:382-384. -/
def mfio (o : Fourier) : ℝ → ℝ := fun x => (o.mfo x).im

open Complex in
/-- The branch `func_is_real`, fourier.py:398-432. -/
noncomputable def callReal (o : Fourier) (s : ℝ) : Except PyErr ℂ :=
  let c : ℂ := o.invConst
  let g : ℂ := o.invSign
  if o.realEven then do
    let v ← o.cosTF o.f s
    .ok (2 * c * v)
  else if o.realOdd then do
    let v ← o.sinTF o.f s
    .ok (-(2 * I * c * g * v))
  else do
    let i1 ← o.cosTF o.mfe s
    let i2 ← o.cosTF o.f s
    let i3 ← o.sinTF o.mfo s
    let i4 ← o.sinTF o.f s
    .ok (0 + c * i1 + c * i2 - I * c * g * i3 - I * c * g * i4)

open Complex in
/-- The branch `func_is_imag`, fourier.py:434-466. -/
noncomputable def callImag (o : Fourier) (s : ℝ) : Except PyErr ℂ :=
  let c : ℂ := o.invConst
  let g : ℂ := o.invSign
  if o.imagEven then do
    let v ← o.cosTF o.f s
    .ok (2 * I * c * v)
  else if o.imagOdd then do
    let v ← o.sinTF o.f s
    .ok (2 * c * g * v)
  else do
    let i1 ← o.cosTF o.mfe s
    let i2 ← o.cosTF o.f s
    let i3 ← o.sinTF o.mfo s
    let i4 ← o.sinTF o.f s
    .ok (0 + I * c * i1 + I * c * i2 - c * g * i3 - c * g * i4)

open Complex in
/-- The real part of the complex branch, fourier.py:468-500: `igral` and the last `ig`. -/
noncomputable def callComplexRe (o : Fourier) (s : ℝ) : ℂ × ℂ :=
  let c : ℂ := o.invConst
  let g : ℂ := o.invSign
  if o.realEven then
    let ig := 2 * c * o.cosT o.realFunc s
    (0 + ig, ig)
  else if o.realOdd then
    let ig := 2 * I * c * g * o.sinT o.realFunc s
    (0 - ig, ig)
  else
    let ig := I * c * g * o.sinT o.realFunc s
    (0 + c * o.cosT o.mfre s + c * o.cosT o.realFunc s - I * c * g * o.sinT o.mfro s - ig, ig)

open Complex in
/-- The branch for complex functions, fourier.py:468-533.  The test for an odd imaginary part is `self.real_part_odd` (509), the branches for
symmetric imaginary parts assign to `igral` (506, 510) and add the last `ig` of the real part to it. -/
noncomputable def callComplex (o : Fourier) (s : ℝ) : Except PyErr ℂ :=
  let c : ℂ := o.invConst
  let g : ℂ := o.invSign
  let r := o.callComplexRe s
  if o.imagEven then do
    let v ← o.cosTF o.f s
    .ok (2 * I * c * v + r.2)
  else if o.realOdd then do
    let v ← o.sinTF o.f s
    .ok (2 * c * g * v + r.2)
  else
    .ok (r.1 + I * c * o.cosT o.mfie s + I * c * o.cosT o.imagFunc s + c * g * o.sinT o.mfio s + c * g * o.sinT o.imagFunc s)

/-- `FourierTransform.__call__`, fourier.py:388-533: the value (not the error estimate). -/
noncomputable def call (o : Fourier) (s : ℝ) : Except PyErr ℂ :=
  if o.isReal then o.callReal s
  else if o.isImag then o.callImag s
  else o.callComplex s

end Fourier
end Geotecha.Transform
