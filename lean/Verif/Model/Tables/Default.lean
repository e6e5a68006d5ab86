import Verif.Model.Str
import Verif.Model.Tables.NginxPlusLatestDirectives
import Verif.Model.Tables.NjsDirectives
import Verif.Model.Tables.OtelDirectives
/-!
# analyze.go:253-274: the union of directive tables and the default table
-/
namespace Verif

/-- A Go `map[string][]uint`: association list, keys compared as strings. -/
abbrev DirTable := List (String × List Nat)

/-- map lookup. -/
def DirTable.get (t : DirTable) (name : Str) : Option (List Nat) :=
  (t.find? (fun e => e.1.toList == name)).map (·.2)

/-- analyze.go:253-263 `unionBitmaskMaps`, as the lookup function of the resulting map: the maps are copied in
order, so the last map that has the key wins.  (The iteration order inside one map does not matter since its keys are distinct.) -/
def unionBitmaskMaps (maps : List DirTable) (name : Str) : Option (List Nat) :=
  maps.foldl (fun acc m => match m.get name with | some v => some v | none => acc) none

/-- analyze.go:269-274 `defaultDirectives`, `DefaultDirectivesMatchFunc`. -/
def defaultDirectivesMatch (name : Str) : Option (List Nat) :=
  unionBitmaskMaps [nginxPlusLatestDirectives, njsDirectives, otelDirectives] name

end Verif
