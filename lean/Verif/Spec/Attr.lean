import Verif.Model.Attr

/-! # Specification: devices, precision and gradient tracking -/

namespace DPFC

/-- A callable that computes on the device of its argument and has no trainable parameters of its own: its result
is on the device of the particles, and takes part in automatic differentiation only if the particles do. -/
def PlainCall (f : Tn → Tn → Except PyErr Tn) : Prop :=
  ∀ x t, ∃ y, f x t = .ok y ∧ y.dev = x.dev ∧ (y.grad = true → x.grad = true)

/-- An array (of positive dimension) on device `dv`, in double precision. -/
def DoubleOn (dv : Dev) (t : Tn) : Prop := t.dev = dv ∧ t.scalar = false ∧ t.f64 = true

/-- The tensor can be turned into a numpy array, as plotting it or `np.asarray` does. -/
def Plottable (t : Tn) : Prop := t.numpy = .ok ()

end DPFC
