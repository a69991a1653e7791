import Verif.Model.Base

/-! # metadata/errors.go -/

namespace Tuf
namespace Err

/-- The `Is` methods of the error types, `metadata/errors.go:45-143`. Types without an `Is` method
(`ErrRepository`, `ErrDownload`, `ErrValue`, `ErrType`, `ErrRuntime`, foreign errors) give `false`. -/
def isMethod : Err → Err → Bool
  | unsignedMetadata _, t => t == repository "" || t == unsignedMetadata ""
  | badVersionNumber _, t => t == repository "" || t == badVersionNumber ""
  | equalVersionNumber _, t => t == repository "" || t == badVersionNumber "" || t == equalVersionNumber ""
  | expiredMetadata _, t => t == repository "" || t == expiredMetadata ""
  | lengthOrHashMismatch _, t => t == repository "" || t == lengthOrHashMismatch ""
  | downloadLengthMismatch _, t => t == download "" || t == downloadLengthMismatch ""
  | downloadHTTP _ _, t => t == download "" || t == downloadHTTP 0 []
  | _, _ => false

/-- `errors.Is(err, target)` for errors that wrap nothing: equality (all fields, so also the message) or the `Is` method.
Used at `updater.go:303, 322, 352, 418`. -/
def is (e target : Err) : Bool := e == target || e.isMethod target

/-- `errors.Is(err, metadata.ErrRepository{})`. -/
def isRepository (e : Err) : Bool := e.is (repository "")

/-- `errors.Is(err, metadata.ErrEqualVersionNumber{})`. -/
def isEqualVersion (e : Err) : Bool := e.is (equalVersionNumber "")

end Err
end Tuf
