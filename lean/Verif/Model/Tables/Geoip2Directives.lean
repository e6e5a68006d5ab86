import Verif.Model.Tables.Bits
/-!
# analyze_geoip2_directives.gen.go: `geoip2Directives`, `MatchGeoip2Latest`

Generated from /repo/analyze_geoip2_directives.gen.go:18 by scripts/gen_tables.py (text translation, same order).
-/
namespace Verif

/-- analyze_geoip2_directives.gen.go `geoip2Directives`, entries 1-3. -/
def geoip2Directives_0 : List (String × List Nat) := [
  ("geoip2", [bits [ngxHTTPMainConf, ngxConfBlock, ngxConfTake1], bits [ngxStreamMainConf, ngxConfBlock, ngxConfTake1]]),
  ("geoip2_proxy", [bits [ngxHTTPMainConf, ngxConfTake1]]),
  ("geoip2_proxy_recursive", [bits [ngxHTTPMainConf, ngxConfFlag]])]

/-- analyze_geoip2_directives.gen.go:18 `geoip2Directives`. -/
def geoip2Directives : List (String × List Nat) :=
  geoip2Directives_0

end Verif
