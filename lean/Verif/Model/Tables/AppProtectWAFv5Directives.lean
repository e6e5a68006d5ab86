import Verif.Model.Tables.Bits
/-!
# analyze_appProtectWAFv5_directives.gen.go: `appProtectWAFv5Directives`, `MatchAppProtectWAFv5`

Generated from /repo/analyze_appProtectWAFv5_directives.gen.go:18 by scripts/gen_tables.py (text translation, same order).
-/
namespace Verif

/-- analyze_appProtectWAFv5_directives.gen.go `appProtectWAFv5Directives`, entries 1-21. -/
def appProtectWAFv5Directives_0 : List (String × List Nat) := [
  ("app_protect_app_name", [bits [ngxHTTPMainConf, ngxHTTPSrvConf, ngxHTTPLocConf, ngxConfTake1]]),
  ("app_protect_compressed_requests_action", [bits [ngxHTTPMainConf, ngxConfTake1]]),
  ("app_protect_config_set_timeout", [bits [ngxHTTPMainConf, ngxConfTake1]]),
  ("app_protect_cookie_seed", [bits [ngxHTTPMainConf, ngxConfTake1]]),
  ("app_protect_cpu_thresholds", [bits [ngxHTTPMainConf, ngxConfTake2]]),
  ("app_protect_custom_log_attribute", [bits [ngxHTTPMainConf, ngxHTTPSrvConf, ngxHTTPLocConf, ngxConfTake2]]),
  ("app_protect_enable", [bits [ngxHTTPMainConf, ngxHTTPSrvConf, ngxHTTPLocConf, ngxConfFlag]]),
  ("app_protect_enforcer_address", [bits [ngxHTTPMainConf, ngxConfTake1]]),
  ("app_protect_enforcer_memory_limit_mb", [bits [ngxHTTPMainConf, ngxConfTake1]]),
  ("app_protect_failure_mode_action", [bits [ngxHTTPMainConf, ngxConfTake1]]),
  ("app_protect_global_settings", [bits [ngxHTTPMainConf, ngxConfTake1]]),
  ("app_protect_logging_str", [bits [ngxHTTPMainConf, ngxHTTPSrvConf, ngxHTTPLocConf, ngxConfTake1]]),
  ("app_protect_physical_memory_util_thresholds", [bits [ngxHTTPMainConf, ngxConfTake2]]),
  ("app_protect_policy_file", [bits [ngxHTTPMainConf, ngxHTTPSrvConf, ngxHTTPLocConf, ngxConfTake1]]),
  ("app_protect_reconnect_period_seconds", [bits [ngxHTTPMainConf, ngxConfTake1]]),
  ("app_protect_request_buffer_overflow_action", [bits [ngxHTTPMainConf, ngxConfTake1]]),
  ("app_protect_response_enforcement_disable", [bits [ngxHTTPMainConf, ngxConfTake1]]),
  ("app_protect_security_log", [bits [ngxHTTPMainConf, ngxHTTPSrvConf, ngxHTTPLocConf, ngxConfTake2]]),
  ("app_protect_security_log_enable", [bits [ngxHTTPMainConf, ngxHTTPSrvConf, ngxHTTPLocConf, ngxConfFlag]]),
  ("app_protect_streaming_buffer_watermarks", [bits [ngxHTTPMainConf, ngxConfTake2]]),
  ("app_protect_user_defined_signatures", [bits [ngxHTTPMainConf, ngxConfTake1]])]

/-- analyze_appProtectWAFv5_directives.gen.go:18 `appProtectWAFv5Directives`. -/
def appProtectWAFv5Directives : List (String × List Nat) :=
  appProtectWAFv5Directives_0

end Verif
