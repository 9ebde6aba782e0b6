import Verif.Gen.Read
import Verif.Gen.Text
import Verif.Gen.Prog

/-! # The text of the support code says what the program is -/

namespace Verif.Gen

/-- /repo/miniquery/miniquery.peg.go:14, 86-358, 435-522, 3360-3363 -/
theorem support_read : readGo supportText = some gDecls := by decide +kernel

end Verif.Gen
