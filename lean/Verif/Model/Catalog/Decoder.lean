import Verif.Model.Catalog.Gettext
import Verif.Model.Po.Parser
/-!
# The decoder for PO files

Models /repo/catalog/po_decoder.go:60-77.
-/
namespace Verif.Model.Catalog
open Verif.Go Verif.Model.Po

/-- What `Decode` does. -/
inductive Decoded
  | catalog (c : GettextCatalog)
  | error
  | panic
  | hang

/-- /repo/catalog/po_decoder.go:60-77 `poDecoder.Decode` and `DecodeReader`: comments are ignored. -/
def poDecode (u : Unicode) (lang : Tag) (domain : Bytes) (useCLDR : Bool) (data : Bytes) : Decoded :=
  match parse u true data with
  | .ok f =>
    match buildGettextCatalog u f lang domain useCLDR with
    | .ok (some c) => .catalog c
    | .ok none => .error
    | .error _ => .panic
  | .eof => .error
  | .error _ => .error
  | .panic => .panic
  | .hang => .hang

end Verif.Model.Catalog
