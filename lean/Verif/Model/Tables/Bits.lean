/-!
# analyze.go:59-109: the bitmask constants

Generated from /repo/analyze.go by scripts/gen_tables.py (text translation).
-/
namespace Verif


/-- analyze.go `ngxConfNoArgs` -/
def ngxConfNoArgs : Nat := 0x1

/-- analyze.go `ngxConfTake1` -/
def ngxConfTake1 : Nat := 0x2

/-- analyze.go `ngxConfTake2` -/
def ngxConfTake2 : Nat := 0x4

/-- analyze.go `ngxConfTake3` -/
def ngxConfTake3 : Nat := 0x8

/-- analyze.go `ngxConfTake4` -/
def ngxConfTake4 : Nat := 0x10

/-- analyze.go `ngxConfTake5` -/
def ngxConfTake5 : Nat := 0x20

/-- analyze.go `ngxConfTake6` -/
def ngxConfTake6 : Nat := 0x40

/-- analyze.go `ngxConfBlock` -/
def ngxConfBlock : Nat := 0x100

/-- analyze.go `ngxConfExpr` -/
def ngxConfExpr : Nat := 0x200

/-- analyze.go `ngxConfFlag` -/
def ngxConfFlag : Nat := 0x400

/-- analyze.go `ngxConfAny` -/
def ngxConfAny : Nat := 0x800

/-- analyze.go `ngxConf1More` -/
def ngxConf1More : Nat := 0x1000

/-- analyze.go `ngxConf2More` -/
def ngxConf2More : Nat := 0x2000

/-- analyze.go `ngxConfTake12` -/
def ngxConfTake12 : Nat := ngxConfTake1 ||| ngxConfTake2

/-- analyze.go `ngxConfTake13` -/
def ngxConfTake13 : Nat := ngxConfTake1 ||| ngxConfTake3

/-- analyze.go `ngxConfTake23` -/
def ngxConfTake23 : Nat := ngxConfTake2 ||| ngxConfTake3

/-- analyze.go `ngxConfTake34` -/
def ngxConfTake34 : Nat := ngxConfTake3 ||| ngxConfTake4

/-- analyze.go `ngxConfTake123` -/
def ngxConfTake123 : Nat := ngxConfTake12 ||| ngxConfTake3

/-- analyze.go `ngxConfTake1234` -/
def ngxConfTake1234 : Nat := ngxConfTake123 ||| ngxConfTake4

/-- analyze.go `ngxDirectConf` -/
def ngxDirectConf : Nat := 0x10000

/-- analyze.go `ngxMgmtMainConf` -/
def ngxMgmtMainConf : Nat := 0x20000

/-- analyze.go `ngxMainConf` -/
def ngxMainConf : Nat := 0x40000

/-- analyze.go `ngxEventConf` -/
def ngxEventConf : Nat := 0x80000

/-- analyze.go `ngxMailMainConf` -/
def ngxMailMainConf : Nat := 0x100000

/-- analyze.go `ngxMailSrvConf` -/
def ngxMailSrvConf : Nat := 0x200000

/-- analyze.go `ngxStreamMainConf` -/
def ngxStreamMainConf : Nat := 0x400000

/-- analyze.go `ngxStreamSrvConf` -/
def ngxStreamSrvConf : Nat := 0x800000

/-- analyze.go `ngxStreamUpsConf` -/
def ngxStreamUpsConf : Nat := 0x1000000

/-- analyze.go `ngxHTTPMainConf` -/
def ngxHTTPMainConf : Nat := 0x2000000

/-- analyze.go `ngxHTTPSrvConf` -/
def ngxHTTPSrvConf : Nat := 0x4000000

/-- analyze.go `ngxHTTPLocConf` -/
def ngxHTTPLocConf : Nat := 0x8000000

/-- analyze.go `ngxHTTPUpsConf` -/
def ngxHTTPUpsConf : Nat := 0x10000000

/-- analyze.go `ngxHTTPSifConf` -/
def ngxHTTPSifConf : Nat := 0x20000000

/-- analyze.go `ngxHTTPLifConf` -/
def ngxHTTPLifConf : Nat := 0x40000000

/-- analyze.go `ngxHTTPLmtConf` -/
def ngxHTTPLmtConf : Nat := 0x80000000

/-- analyze.go `ngxHTTPOIDCConf` -/
def ngxHTTPOIDCConf : Nat := 0x100000000

/-- analyze.go `ngxAnyConf` -/
def ngxAnyConf : Nat := ngxMainConf ||| ngxEventConf ||| ngxMailMainConf ||| ngxMailSrvConf ||| ngxStreamMainConf ||| ngxStreamSrvConf ||| ngxStreamUpsConf ||| ngxHTTPMainConf ||| ngxHTTPSrvConf ||| ngxHTTPLocConf ||| ngxHTTPUpsConf ||| ngxHTTPSifConf ||| ngxHTTPLifConf ||| ngxHTTPLmtConf


/-- The `|` of the listed constants: one bitmask of a table entry. -/
def bits (ms : List Nat) : Nat := ms.foldl (· ||| ·) 0

end Verif
