import Verif.Basic
/-
Model of logger.go: flags, `GetLogSettings`, the text built by `LogQueryStats`, `NewLogger`.

The fields of `QueryStats` enter as the texts they are printed as (`strconv`, `fmt`, `Sprintf` — the latter is modelled in
Model/Sprintf).  The `log.Logger` prefix (date and time) is not modelled.
-/
namespace Sq

/-- logger.go:18-25. -/
def Linterpolate : Nat := 1 <<< 0
def LinterpolateVerbose : Nat := 1 <<< 1
def Lcaller : Nat := 1 <<< 2
def Lcolor : Nat := 1 <<< 3
def Ltime : Nat := 1 <<< 4
def Lasync : Nat := 1 <<< 5

/-- logger.go:76-81. -/
structure LogSettings where
  resultsLimit : Int
  getCallerInfo : Bool
  asyncLogging : Bool
  timeQuery : Bool
  deriving DecidableEq

/-- `x & l.logflag != 0` -/
def hasFlag (x f : Nat) : Bool := decide (x &&& f ≠ 0)

/-- logger.go:127-134. -/
def getLogSettings (flag : Nat) (limit : Int) : LogSettings :=
  { resultsLimit := limit, getCallerInfo := hasFlag Lcaller flag, asyncLogging := hasFlag Lasync flag, timeQuery := hasFlag Ltime flag }

/-- What is printed of a `QueryStats` (logger.go:53-74): `failed` is `stats.Error != nil`; the `Valid` flags and `TimeTaken > 0`
are `some`; `args` is `fmt.Sprint(stats.Args)`, `argsVerbose` is `fmt.Sprintf("%#v", stats.Args)`, `interpolated` is the query with
the arguments interpolated (and the error, if that failed); `caller` is `file:line:function`. -/
structure QueryStats where
  failed : Bool := false
  query : Str := []
  args : Str := []
  argsVerbose : Str := []
  interpolated : Str := []
  timeTaken : Option Str := none
  exists_ : Option Str := none
  rowCount : Option Str := none
  rowsAffected : Option Str := none
  lastInsertID : Option Str := none
  caller : Str := []
  results : Str := []
  deriving DecidableEq

/-- logger.go:27-37, 142-149: the colours in use (not on Windows, logger.go:39-51). -/
def escape (n : String) : Str := '\x1b' :: ("[".toList ++ n.toList ++ "m".toList)
def color (flag : Nat) (n : String) : Str := if hasFlag Lcolor flag then escape n else []

/-- `if x.Valid { buf.WriteString(blue + " name" + reset + "=" + ...) }` -/
def stat (flag : Nat) (name : String) : Option Str → Str
  | none => []
  | some v => color flag "34" ++ name.toList ++ color flag "0" ++ "=".toList ++ v

/-- logger.go:136-213 `LogQueryStats`, the text (nothing is logged when the context is done). -/
def logText (flag : Nat) (s : QueryStats) : Str :=
  (if s.failed then color flag "31" ++ "[FAIL]".toList ++ color flag "0" else color flag "32" ++ "[OK]".toList ++ color flag "0") ++
  (if hasFlag LinterpolateVerbose flag then []
   else (if hasFlag Linterpolate flag then " ".toList ++ s.interpolated else " ".toList ++ s.query ++ " ".toList ++ s.args) ++ " |".toList) ++
  stat flag " timeTaken" s.timeTaken ++ stat flag " exists" s.exists_ ++ stat flag " rowCount" s.rowCount ++
  stat flag " rowsAffected" s.rowsAffected ++ stat flag " lastInsertID" s.lastInsertID ++
  (if hasFlag Lcaller flag then stat flag " caller" (some s.caller) else []) ++
  (if hasFlag LinterpolateVerbose flag then
    "\n".toList ++ color flag "35" ++ "----[ Executing query ]----".toList ++ color flag "0" ++
    "\n".toList ++ s.query ++ " ".toList ++ s.argsVerbose ++
    "\n".toList ++ color flag "35" ++ "----[ with bind values ]----".toList ++ color flag "0" ++
    "\n".toList ++ s.interpolated else []) ++
  (if s.results = [] then [] else "\n".toList ++ color flag "35" ++ "----[ Fetched result ]----".toList ++ color flag "0" ++ s.results)

/-- Where a logger writes. -/
inductive Sink where
  | stdout
  | other (id : Nat)
  deriving DecidableEq

structure Logger where
  sink : Sink
  flag : Nat
  limit : Int
  deriving DecidableEq

/-- logger.go:106-112 `NewLogger`: note `log.New(os.Stdout, ...)`. -/
def newLogger (_out : Sink) (flag : Nat) (limit : Int) : Logger := { sink := .stdout, flag := flag, limit := limit }

/-- logger.go:113-125: the loggers of `Log` and `VerboseLog`. -/
def defaultLogger : Logger := newLogger .stdout (Ltime ||| Lcaller ||| Lcolor ||| Linterpolate) 0
def verboseLogger : Logger := newLogger .stdout (Ltime ||| Lcaller ||| Lcolor ||| LinterpolateVerbose) 5

end Sq
