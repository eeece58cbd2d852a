import Verif.Go.Time
import Verif.Model.Po.File
/-!
# References

Models the methods of `Reference` in /repo/catalog/po/comment.go.
-/
namespace Verif.Model.Po
open Verif.Go

/-- /repo/catalog/po/comment.go:16-22 `String`. -/
def Reference.string (r : Reference) : Bytes :=
  if r.line > 0 then r.path ++ b!":" ++ itoa r.line ++ b!":" ++ itoa r.column else r.path

/-- /repo/catalog/po/comment.go:24-26 `Equal`. -/
def Reference.equal (r o : Reference) : Bool := r.path = o.path && r.line = o.line && r.column = o.column

end Verif.Model.Po
