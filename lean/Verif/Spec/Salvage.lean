import Verif.Model.Decoder
/-!
# What a failed decode leaves behind
-/

namespace Iso8583

/-- The values read before `decode` failed.  After bytes too many that is the whole partial dict,
otherwise `e.doc_dec` after `del e.doc_dec[e.field]`. -/
def salvaged (e : DecodeError) : DecDoc :=
  if e.msg = .extraData then e.docDec else e.docDec.filter fun p => p.1 ≠ e.field

end Iso8583
