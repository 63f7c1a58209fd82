import Verif.Spec.Atoms
import Verif.Spec.Expr

/-! The `$` of PICA Path: which codes follow it and what they mean in the other notation. -/

namespace Pica
namespace Spec

/-- `$abc` stands for `[abc]` and `$*` for `*` -/
inductive DollarAs : Bytes → Bytes → Prop
  | list (cs : Bytes) (h : cs ≠ []) (hc : ∀ b ∈ cs, IsCode b) : DollarAs cs ([0x5B] ++ cs ++ [0x5D])
  | all : DollarAs [0x2A] [0x2A]

/-- a text in front of which codes end -/
def CodesEnd (r : Bytes) : Prop := ∀ b, r.head? = some b → ¬ IsCode b

/-- lists of codes separated by commas, with `$` and without: `$ab, $c` and `[ab], [c]` -/
inductive DollarList : Bytes → Bytes → Prop
  | one {u d : Bytes} (h : DollarAs u d) : DollarList (0x24 :: u) d
  | more {u d w w' v v' t e : Bytes} (h : DollarAs u d) (hw : Ws w) (hw' : Ws w') (hv : Ws v) (hv' : Ws v')
      (ht : DollarList t e) :
      DollarList (0x24 :: (u ++ (w ++ [0x2C] ++ w' ++ t))) (d ++ (v ++ [0x2C] ++ v' ++ e))

end Spec
end Pica
