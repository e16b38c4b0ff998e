import Verif.Model.Symbols

/-!
# Model of the configuration, `hgaa/config.py`

The two `ConfigParser` objects the module builds from `services.ini` and `clients.ini` are values of type `Ini`.
Here an `Ini` holds the values as `ConfigParser.get` returns them; reading the files and the `%` interpolation of values
are modelled in `Verif/Model/IniFile.lean`.
-/

namespace Verif

/-- A `configparser.ConfigParser`: the `DEFAULT` section and the others; option names are stored in lower case. -/
structure Ini where
  defaults : Dict Str := []
  sections : Dict (Dict Str) := []
deriving DecidableEq, Repr

/-- `parser[sect].get(option, None)` for a section with values `d`: option names are lower-cased and options missing
from the section are taken from `DEFAULT`. -/
def Ini.option (U : Uni) (i : Ini) (d : Dict Str) (option : Str) : Option Str :=
  (d.get (U.lower option)).or (i.defaults.get (U.lower option))

/-- `DEFAULT_SERVICE_CONFIGS`, `hgaa/config.py:8-30`. -/
def defaultServiceConfigs : Dict (Option Str) :=
  [("DB_TYPE".toList, some "mysql".toList),
   ("DB_NAME".toList, some "hgaa".toList),
   ("DB_USER".toList, none),
   ("DB_PASS".toList, none),
   ("DB_PORT".toList, some "3306".toList),
   ("DB_HOST".toList, some "localhost".toList),
   ("LOG_LEVEL".toList, some "ALL".toList),
   ("LOG_FILE".toList, some "hgaa_service.log".toList),
   ("LOG_FORMAT".toList, some "%(asctime)s: [%(levelname)s: %(name)s] %(message)s".toList),
   ("LOG_DATE_FORMAT".toList, some "%m/%d/%Y %I:%M:%S %p".toList),
   ("LOG_NAME".toList, some "services".toList),
   ("LOG_STDOUT".toList, some "True".toList),
   ("SQL_LOG_LEVEL".toList, some "ALL".toList),
   ("SQL_LOG_FILE".toList, some "sql.log".toList),
   ("SQL_LOG_FORMAT".toList, some "%(asctime)s: [%(levelname)s: %(name)s] %(message)s".toList),
   ("SQL_LOG_DATE_FORMAT".toList, some "%m/%d/%Y %I:%M:%S %p".toList),
   ("SQL_LOG_STDOUT".toList, some "True".toList),
   ("CLEAN_LOG_ON_START".toList, some "True".toList),
   ("SERVICE_ENABLED".toList, some "True".toList),
   ("SERVICE_PORT".toList, some "8888".toList),
   ("SERVICE_HOST".toList, some [])]

/-- `DEFAULT_CLIENT_CONFIGS`, `hgaa/config.py:32-40`. -/
def defaultClientConfigs : Dict (Option Str) :=
  [("LOG_LEVEL".toList, some "ALL".toList),
   ("LOG_FILE".toList, some "hgaa_client.log".toList),
   ("LOG_FORMAT".toList, some "%(asctime)s: [%(levelname)s: %(name)s] %(message)s".toList),
   ("LOG_DATE_FORMAT".toList, some "%m/%d/%Y %I:%M:%S %p".toList),
   ("LOG_NAME".toList, some "clients".toList),
   ("LOG_STDOUT".toList, some "True".toList),
   ("CLEAN_LOG_ON_START".toList, some "False".toList)]

/-- `SERVICE_CONFIG` and `CLIENT_CONFIG`, `hgaa/config.py:42-53`. -/
structure Config where
  service : Ini := {}
  client : Ini := {}
deriving DecidableEq, Repr

/-- The parser selected by the `service` argument. -/
def Config.ini (c : Config) (service : Bool) : Ini := if service then c.service else c.client

/-- The built-in values selected by the `service` argument. -/
def builtinConfigs (service : Bool) : Dict (Option Str) :=
  if service then defaultServiceConfigs else defaultClientConfigs

/-- `'DEFAULT'` -/
def defaultSect : Str := "DEFAULT".toList

/-- `get_conf`, `hgaa/config.py:56-87`, with at most `fuel` nested calls. `has_section` is false of `DEFAULT`, and
`ConfigParser` never stores a section of that name. -/
def getConfN (U : Uni) (c : Config) : Nat → Str → Bool → Str → Except PyExc (Option Str)
  | 0, _, _, _ => .error .outOfFuel
  | fuel + 1, valName, service, sect =>
    let valName := U.upper valName
    let sect := U.upper sect
    let ini := c.ini service
    let conf := ini.sections.get sect
    let sect := if conf.isSome then sect else defaultSect
    match ini.option U (conf.getD []) valName with
    | some v => .ok (some v)
    | none =>
      if sect = defaultSect then .ok ((builtinConfigs service).get valName).join
      else getConfN U c fuel valName service defaultSect

/-- `get_conf`; two nested calls are enough (`Props.getConf_terminates`). -/
def getConf (U : Uni) (c : Config) (valName : Str) (service : Bool) (sect : Str) : Except PyExc (Option Str) :=
  getConfN U c 2 valName service sect

end Verif
