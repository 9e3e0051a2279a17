import Verif.Model.Console
/-!
The texts of the debug console: constant maps (src/common/ConstexprMap.hpp) and the three maps of src/common/debug_console.cpp.
-/
namespace PAN
namespace ConsoleText

/-- src/common/ConstexprMap.hpp:28-40 `operator[]`: the value of the first entry with the key; `none`: there is none, and the
program throws an exception nobody catches or fails an assertion. -/
def lookup {K V : Type} [DecidableEq K] : List (K × V) → K → Option V
  | [], _ => none
  | kv :: r, k => if k = kv.1 then some kv.2 else lookup r k

/-- src/common/debug_console.hpp:13-15 -/
inductive Severity where
  | debug | info | notice | warning | error | critical | alert | emergency
  deriving DecidableEq

/-- src/common/debug_console.hpp:17-21, all members -/
inductive ErrCode where
  | invalidFieldName | fieldIsOnlyReadable | missingMode | invalidModeNotChar | invalidMode | missingFieldVal | invalidFieldVal
  deriving DecidableEq

/-- The codes the console uses, src/common/debug_console.cpp:315, 320, 331, 340, 348, 355, 425. -/
def code : Console.Err → ErrCode
  | .invalidFieldName => .invalidFieldName
  | .missingMode => .missingMode
  | .invalidModeNotChar => .invalidModeNotChar
  | .invalidMode => .invalidMode
  | .missingFieldVal => .missingFieldVal
  | .invalidFieldVal => .invalidFieldVal

/-- src/common/debug_console.cpp:24-33; a text is `none` if it is a null pointer. -/
def severityStrs : List (Severity × Option String) :=
  [(.debug, some "DEBUG"), (.info, some "INFO"), (.notice, some "NOTICE"), (.warning, some "WARNING"), (.error, some "ERROR"),
   (.critical, some "CRITICAL"), (.alert, some "ALERT"), (.emergency, some "EMERGENCY")]

/-- src/common/debug_console.cpp:35-42: declared with seven entries, of which six are given; the last is value-initialised. -/
def errStrs : List (ErrCode × Option String) :=
  [(.invalidFieldName, some "invalid field name"), (.missingMode, some "missing mode specification"),
   (.invalidModeNotChar, some "mode value is not a character"), (.invalidMode, some "mode value is not 'r' or 'w'"),
   (.missingFieldVal, some "missing value of field to be written"), (.invalidFieldVal, some "field value was invalid"),
   (.invalidFieldName, none)]

/-- src/common/debug_console.cpp:44-48 -/
def modeStrs : List (Console.CmdMode × Option String) :=
  [(.unspecified, some "perform unspecified operation with"), (.read, some "read"), (.write, some "write")]

/-- src/common/debug_console.cpp:122-140 `_print_error_state_field`: the texts of the mode and of the error; `none`: the program ends. -/
def errorTexts (m : Console.CmdMode) (c : ErrCode) : Option (Option String × Option String) :=
  match lookup modeStrs m, lookup errStrs c with
  | some a, some b => some (a, b)
  | _, _ => none

end ConsoleText
end PAN
