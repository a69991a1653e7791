import Verif.Model.Types
import Verif.Model.Std.Time
import Verif.Model.Std.Float
import Verif.Model.Std.Glob
import Verif.Model.Std.Url

/-!
# The environment with the standard library

The parameters `parse`, `print` (`encoding/json`), `parseTime` (`time`), `anyNum` (`strconv`), `glob` (`path/filepath`) and `urlJoin` (`net/url`) of `Env` are replaced by the models of the standard library; cryptography and hashes
stay parameters.
-/

namespace Tuf.Std
open Tuf

def std (env : Env) : Env :=
  { env with
    parse := parseJson
    print := printJson
    parseTime := parseRFC3339
    anyNum := anyNumber
    glob := globMatch
    urlJoin := urlJoinPath }

end Tuf.Std
