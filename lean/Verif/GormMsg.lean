import Verif.Gorm

/-! # The texts of gorm's errors (/repo/gormq/miniquery.go) -/

namespace Verif

/-- The texts of /repo/gormq/miniquery.go:72, 79, 85, 116, 223; `P` is `strconv.IsPrint`. -/
def GErr.text (P : Char → Bool) : GErr → Str
  | .fieldNotFound s => c!"field not found: " ++ Verif.quote P s
  | .relationNotFound s => c!"relation not found: " ++ Verif.quote P s
  | .relationFieldNotFound s f => c!"relation field not found: " ++ Verif.quote P s ++ c!"." ++ Verif.quote P f
  | .oneLevel => c!"only support join one level"
  | .unsupported f => c!"unsupported function: " ++ Verif.quote P f

end Verif
