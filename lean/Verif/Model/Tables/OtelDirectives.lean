import Verif.Model.Tables.Bits
/-!
# analyze_otel_directives.gen.go: `otelDirectives`, `MatchOtelLatest`

Generated from /repo/analyze_otel_directives.gen.go:18 by scripts/gen_tables.py (text translation, same order).
-/
namespace Verif

/-- analyze_otel_directives.gen.go `otelDirectives`, entries 1-9. -/
def otelDirectives_0 : List (String × List Nat) := [
  ("header", [bits [ngxConfTake2]]),
  ("otel_exporter", [bits [ngxHTTPMainConf, ngxConfBlock, ngxConfNoArgs]]),
  ("otel_resource_attr", [bits [ngxHTTPMainConf, ngxConfTake2]]),
  ("otel_service_name", [bits [ngxHTTPMainConf, ngxConfTake1]]),
  ("otel_span_attr", [bits [ngxHTTPMainConf, ngxHTTPSrvConf, ngxHTTPLocConf, ngxConfTake2]]),
  ("otel_span_name", [bits [ngxHTTPMainConf, ngxHTTPSrvConf, ngxHTTPLocConf, ngxConfTake1]]),
  ("otel_trace", [bits [ngxHTTPMainConf, ngxHTTPSrvConf, ngxHTTPLocConf, ngxConfTake1]]),
  ("otel_trace_context", [bits [ngxHTTPMainConf, ngxHTTPSrvConf, ngxHTTPLocConf, ngxConfTake1]]),
  ("trusted_certificate", [bits [ngxConfTake1]])]

/-- analyze_otel_directives.gen.go:18 `otelDirectives`. -/
def otelDirectives : List (String × List Nat) :=
  otelDirectives_0

end Verif
