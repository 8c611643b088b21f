import Verif.Spec.Tensor

/-! # Specification of broadcasting -/

namespace Mli.Spec

/-- Index of the element of a tensor of shape `ss` that is copied to index `is` of a tensor of shape `ds`: coordinates of
dimensions in which the shapes differ are replaced by 0. -/
def bcastIdx : (ss ds is : List Int) → List Int
  | s :: ss, d :: ds, i :: is => (if s = d then i else 0) :: bcastIdx ss ds is
  | _, _, _ => []

end Mli.Spec
