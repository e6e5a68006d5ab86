import Verif.Model.Tables.Default
import Verif.Model.Tables.AppProtectWAFv4Directives
import Verif.Model.Tables.AppProtectWAFv5Directives
import Verif.Model.Tables.Geoip2Directives
import Verif.Model.Tables.HeadersMoreDirectives
import Verif.Model.Tables.LuaDirectives
import Verif.Model.Tables.NjsDirectives
import Verif.Model.Tables.NginxPlusR30Directives
import Verif.Model.Tables.NginxPlusR31Directives
import Verif.Model.Tables.NginxPlusR33Directives
import Verif.Model.Tables.NginxPlusR34Directives
import Verif.Model.Tables.NginxPlusR35Directives
import Verif.Model.Tables.NginxPlusR36Directives
import Verif.Model.Tables.NginxPlusR37Directives
import Verif.Model.Tables.NginxPlusLatestDirectives
import Verif.Model.Tables.Oss124Directives
import Verif.Model.Tables.Oss126Directives
import Verif.Model.Tables.OssLatestDirectives
import Verif.Model.Tables.OtelDirectives
/-!
# All built-in directive tables and their `MatchFunc`s
-/
namespace Verif

/-- `MatchAppProtectWAFv4` (last lines of the file of `appProtectWAFv4Directives`): lookup in the table. -/
def MatchAppProtectWAFv4 (directive : Str) : Option (List Nat) := DirTable.get appProtectWAFv4Directives directive

/-- `MatchAppProtectWAFv5` (last lines of the file of `appProtectWAFv5Directives`): lookup in the table. -/
def MatchAppProtectWAFv5 (directive : Str) : Option (List Nat) := DirTable.get appProtectWAFv5Directives directive

/-- `MatchGeoip2Latest` (last lines of the file of `geoip2Directives`): lookup in the table. -/
def MatchGeoip2Latest (directive : Str) : Option (List Nat) := DirTable.get geoip2Directives directive

/-- `MatchHeadersMoreLatest` (last lines of the file of `headersMoreDirectives`): lookup in the table. -/
def MatchHeadersMoreLatest (directive : Str) : Option (List Nat) := DirTable.get headersMoreDirectives directive

/-- `MatchLuaLatest` (last lines of the file of `luaDirectives`): lookup in the table. -/
def MatchLuaLatest (directive : Str) : Option (List Nat) := DirTable.get luaDirectives directive

/-- `MatchNjsLatest` (last lines of the file of `njsDirectives`): lookup in the table. -/
def MatchNjsLatest (directive : Str) : Option (List Nat) := DirTable.get njsDirectives directive

/-- `MatchNginxPlusR30` (last lines of the file of `nginxPlusR30Directives`): lookup in the table. -/
def MatchNginxPlusR30 (directive : Str) : Option (List Nat) := DirTable.get nginxPlusR30Directives directive

/-- `MatchNginxPlusR31` (last lines of the file of `nginxPlusR31Directives`): lookup in the table. -/
def MatchNginxPlusR31 (directive : Str) : Option (List Nat) := DirTable.get nginxPlusR31Directives directive

/-- `MatchNginxPlusR33` (last lines of the file of `nginxPlusR33Directives`): lookup in the table. -/
def MatchNginxPlusR33 (directive : Str) : Option (List Nat) := DirTable.get nginxPlusR33Directives directive

/-- `MatchNginxPlusR34` (last lines of the file of `nginxPlusR34Directives`): lookup in the table. -/
def MatchNginxPlusR34 (directive : Str) : Option (List Nat) := DirTable.get nginxPlusR34Directives directive

/-- `MatchNginxPlusR35` (last lines of the file of `nginxPlusR35Directives`): lookup in the table. -/
def MatchNginxPlusR35 (directive : Str) : Option (List Nat) := DirTable.get nginxPlusR35Directives directive

/-- `MatchNginxPlusR36` (last lines of the file of `nginxPlusR36Directives`): lookup in the table. -/
def MatchNginxPlusR36 (directive : Str) : Option (List Nat) := DirTable.get nginxPlusR36Directives directive

/-- `MatchNginxPlusR37` (last lines of the file of `nginxPlusR37Directives`): lookup in the table. -/
def MatchNginxPlusR37 (directive : Str) : Option (List Nat) := DirTable.get nginxPlusR37Directives directive

/-- `MatchNginxPlusLatest` (last lines of the file of `nginxPlusLatestDirectives`): lookup in the table. -/
def MatchNginxPlusLatest (directive : Str) : Option (List Nat) := DirTable.get nginxPlusLatestDirectives directive

/-- `MatchOss124` (last lines of the file of `oss124Directives`): lookup in the table. -/
def MatchOss124 (directive : Str) : Option (List Nat) := DirTable.get oss124Directives directive

/-- `MatchOss126` (last lines of the file of `oss126Directives`): lookup in the table. -/
def MatchOss126 (directive : Str) : Option (List Nat) := DirTable.get oss126Directives directive

/-- `MatchOssLatest` (last lines of the file of `ossLatestDirectives`): lookup in the table. -/
def MatchOssLatest (directive : Str) : Option (List Nat) := DirTable.get ossLatestDirectives directive

/-- `MatchOtelLatest` (last lines of the file of `otelDirectives`): lookup in the table. -/
def MatchOtelLatest (directive : Str) : Option (List Nat) := DirTable.get otelDirectives directive

/-- All built-in tables with the name of their match function. -/
def allTables : List (String × DirTable) := [
  ("MatchAppProtectWAFv4", appProtectWAFv4Directives),
  ("MatchAppProtectWAFv5", appProtectWAFv5Directives),
  ("MatchGeoip2Latest", geoip2Directives),
  ("MatchHeadersMoreLatest", headersMoreDirectives),
  ("MatchLuaLatest", luaDirectives),
  ("MatchNjsLatest", njsDirectives),
  ("MatchNginxPlusR30", nginxPlusR30Directives),
  ("MatchNginxPlusR31", nginxPlusR31Directives),
  ("MatchNginxPlusR33", nginxPlusR33Directives),
  ("MatchNginxPlusR34", nginxPlusR34Directives),
  ("MatchNginxPlusR35", nginxPlusR35Directives),
  ("MatchNginxPlusR36", nginxPlusR36Directives),
  ("MatchNginxPlusR37", nginxPlusR37Directives),
  ("MatchNginxPlusLatest", nginxPlusLatestDirectives),
  ("MatchOss124", oss124Directives),
  ("MatchOss126", oss126Directives),
  ("MatchOssLatest", ossLatestDirectives),
  ("MatchOtelLatest", otelDirectives)]

end Verif
