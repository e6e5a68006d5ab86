import Verif.Model.Tables.Bits
/-!
# analyze_headersMore_directives.gen.go: `headersMoreDirectives`, `MatchHeadersMoreLatest`

Generated from /repo/analyze_headersMore_directives.gen.go:18 by scripts/gen_tables.py (text translation, same order).
-/
namespace Verif

/-- analyze_headersMore_directives.gen.go `headersMoreDirectives`, entries 1-4. -/
def headersMoreDirectives_0 : List (String × List Nat) := [
  ("more_clear_headers", [bits [ngxHTTPMainConf, ngxHTTPSrvConf, ngxHTTPLocConf, ngxHTTPLifConf, ngxConf1More]]),
  ("more_clear_input_headers", [bits [ngxHTTPMainConf, ngxHTTPSrvConf, ngxHTTPLocConf, ngxHTTPLifConf, ngxConf1More]]),
  ("more_set_headers", [bits [ngxHTTPMainConf, ngxHTTPSrvConf, ngxHTTPLocConf, ngxHTTPLifConf, ngxConf1More]]),
  ("more_set_input_headers", [bits [ngxHTTPMainConf, ngxHTTPSrvConf, ngxHTTPLocConf, ngxHTTPLifConf, ngxConf1More]])]

/-- analyze_headersMore_directives.gen.go:18 `headersMoreDirectives`. -/
def headersMoreDirectives : List (String × List Nat) :=
  headersMoreDirectives_0

end Verif
