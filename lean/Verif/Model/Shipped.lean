import Verif.Model.Config

/-!
# The configuration files shipped with the code

Their text, and the values in them: as written, and as `ConfigParser.get` returns them.
-/

namespace Verif

/-- `hgaa/confs/services.ini` -/
def servicesIni : Str :=
  (["[DEFAULT]\r\n",
    "DB_TYPE=mysql\r\n",
    "DB_NAME=hgaa\r\n",
    "DB_USER=apps\r\n",
    "DB_PASS=PUTYOURPASSWORDHERE\r\n",
    "DB_PORT=3306\r\n",
    "DB_HOST=localhost\r\n",
    "LOG_LEVEL=ALL\r\n",
    "LOG_FILE=hgaa_service.log\r\n",
    "LOG_FORMAT=%%(asctime)s:    [%%(levelname)s: %%(name)s]    %%(message)s\r\n",
    "LOG_DATE_FORMAT=%%Y-%%m-%%d %%I:%%M:%%S %%p\r\n",
    "LOG_NAME=services\r\n",
    "LOG_STDOUT=True\r\n",
    "SQL_LOG_LEVEL=ALL\r\n",
    "SQL_LOG_FILE=sql.log\r\n",
    "SQL_LOG_FORMAT=%%(asctime)s:    [%%(levelname)s: %%(name)s]    %%(message)s\r\n",
    "SQL_LOG_DATE_FORMAT=%%Y-%%m-%%d %%I:%%M:%%S %%p\r\n",
    "SQL_LOG_STDOUT=True\r\n",
    "CLEAN_LOG_ON_START=True\r\n",
    "SERVICE_ENABLED=True\r\n",
    "PASS_PEPPER=PUTYOURPEPPERHERE\r\n",
    "\r\n",
    "[TOOLS]\r\n",
    "LOG_LEVEL=ALL\r\n",
    "LOG_NAME=tools\r\n",
    "LOG_FILE=None\r\n",
    "LOG_STDOUT=False\r\n",
    "\r\n",
    "[LADON]\r\n",
    "LOG_NAME=ladon\r\n",
    "LOG_LEVEL=ALL\r\n",
    "LOG_FILE=ladon.log\r\n",
    "LOG_FORMAT=%%(asctime)s:    [%%(levelname)s: %%(name)s]    %%(message)s\r\n",
    "LOG_DATE_FORMAT=%%Y-%%m-%%d %%I:%%M:%%S %%p\r\n",
    "LOG_STDOUT=True\r\n",
    "SERVICE_PORT=8888\r\n",
    "SERVICE_HOST=\r\n",
    "\r\n",
    "[AAUTH]\r\n",
    "LOG_LEVEL=ALL\r\n",
    "LOG_NAME=aauth\r\n",
    "LOG_FILE=None\r\n",
    "LOG_STDOUT=False\r\n",
    "SERVICE_ENABLED=True\r\n",
    "AAUTH_ID=localhost\r\n",
    "A_URI=hgabac://localhost:8888\r\n",
    "AC_EXPIRE_LENGTH=3600\r\n",
    "REV_URL=\r\n",
    "KEY_PASS=PUTYOURPASSWORDHERE\r\n",
    "KEY_FILE=keys/aauth_rsa_key.bin\r\n",
    "\r\n",
    "[PAUTH]\r\n",
    "LOG_LEVEL=ALL\r\n",
    "LOG_NAME=pauth\r\n",
    "LOG_FILE=None\r\n",
    "LOG_STDOUT=False\r\n",
    "SERVICE_ENABLED=True\r\n",
    "PAUTH_NAME=localhost\r\n",
    "PAUTH_UID=hgabac://localhost:8888"].map String.toList).flatten

/-- `hgaa/confs/clients.ini` -/
def clientsIni : Str :=
  (["[DEFAULT]\r\n",
    "LOG_LEVEL=ALL\r\n",
    "LOG_FILE=hgaa_client.log\r\n",
    "LOG_FORMAT=%%(asctime)s:    [%%(levelname)s: %%(name)s]    %%(message)s\r\n",
    "LOG_DATE_FORMAT=%%Y-%%m-%%d %%I:%%M:%%S %%p\r\n",
    "LOG_NAME=clients\r\n",
    "LOG_STDOUT=True\r\n",
    "CLEAN_LOG_ON_START=True\r\n",
    "\r\n",
    "[TOOLS]\r\n",
    "LOG_LEVEL=ALL\r\n",
    "LOG_NAME=tools\r\n",
    "LOG_FILE=None\r\n",
    "LOG_STDOUT=False\r\n",
    "\r\n",
    "[AAUTH]\r\n",
    "LOG_LEVEL=ALL\r\n",
    "LOG_NAME=aauth\r\n",
    "LOG_FILE=None\r\n",
    "LOG_STDOUT=False\r\n",
    "CLIENT_TYPE=JSONWSP\r\n",
    "SERVICE_DESCRIPTION=http://localhost:8888/AttributeAuthority/jsonwsp/description\r\n",
    "CRED_TYPE=0\r\n",
    "CRED_USER=Dan\r\n",
    "CRED_PASS=admin\r\n",
    "KEY_SIZE=2048\r\n",
    "\r\n",
    "[PAUTH]\r\n",
    "LOG_LEVEL=ALL\r\n",
    "LOG_NAME=aauth\r\n",
    "LOG_FILE=None\r\n",
    "LOG_STDOUT=False\r\n",
    "CLIENT_TYPE=JSONWSP\r\n",
    "SERVICE_DESCRIPTION=http://localhost:8888/PolicyAuthority/jsonwsp/description\r\n"].map String.toList).flatten

/-- The values as written. -/
def shippedRaw : Config where
  service :=
    { defaults := [("db_type".toList, "mysql".toList),
         ("db_name".toList, "hgaa".toList),
         ("db_user".toList, "apps".toList),
         ("db_pass".toList, "PUTYOURPASSWORDHERE".toList),
         ("db_port".toList, "3306".toList),
         ("db_host".toList, "localhost".toList),
         ("log_level".toList, "ALL".toList),
         ("log_file".toList, "hgaa_service.log".toList),
         ("log_format".toList, "%%(asctime)s:    [%%(levelname)s: %%(name)s]    %%(message)s".toList),
         ("log_date_format".toList, "%%Y-%%m-%%d %%I:%%M:%%S %%p".toList),
         ("log_name".toList, "services".toList),
         ("log_stdout".toList, "True".toList),
         ("sql_log_level".toList, "ALL".toList),
         ("sql_log_file".toList, "sql.log".toList),
         ("sql_log_format".toList, "%%(asctime)s:    [%%(levelname)s: %%(name)s]    %%(message)s".toList),
         ("sql_log_date_format".toList, "%%Y-%%m-%%d %%I:%%M:%%S %%p".toList),
         ("sql_log_stdout".toList, "True".toList),
         ("clean_log_on_start".toList, "True".toList),
         ("service_enabled".toList, "True".toList),
         ("pass_pepper".toList, "PUTYOURPEPPERHERE".toList)]
      sections := [("TOOLS".toList,
          [("log_level".toList, "ALL".toList),
           ("log_name".toList, "tools".toList),
           ("log_file".toList, "None".toList),
           ("log_stdout".toList, "False".toList)]),
        ("LADON".toList,
          [("log_name".toList, "ladon".toList),
           ("log_level".toList, "ALL".toList),
           ("log_file".toList, "ladon.log".toList),
           ("log_format".toList, "%%(asctime)s:    [%%(levelname)s: %%(name)s]    %%(message)s".toList),
           ("log_date_format".toList, "%%Y-%%m-%%d %%I:%%M:%%S %%p".toList),
           ("log_stdout".toList, "True".toList),
           ("service_port".toList, "8888".toList),
           ("service_host".toList, "".toList)]),
        ("AAUTH".toList,
          [("log_level".toList, "ALL".toList),
           ("log_name".toList, "aauth".toList),
           ("log_file".toList, "None".toList),
           ("log_stdout".toList, "False".toList),
           ("service_enabled".toList, "True".toList),
           ("aauth_id".toList, "localhost".toList),
           ("a_uri".toList, "hgabac://localhost:8888".toList),
           ("ac_expire_length".toList, "3600".toList),
           ("rev_url".toList, "".toList),
           ("key_pass".toList, "PUTYOURPASSWORDHERE".toList),
           ("key_file".toList, "keys/aauth_rsa_key.bin".toList)]),
        ("PAUTH".toList,
          [("log_level".toList, "ALL".toList),
           ("log_name".toList, "pauth".toList),
           ("log_file".toList, "None".toList),
           ("log_stdout".toList, "False".toList),
           ("service_enabled".toList, "True".toList),
           ("pauth_name".toList, "localhost".toList),
           ("pauth_uid".toList, "hgabac://localhost:8888".toList)])] }
  client :=
    { defaults := [("log_level".toList, "ALL".toList),
         ("log_file".toList, "hgaa_client.log".toList),
         ("log_format".toList, "%%(asctime)s:    [%%(levelname)s: %%(name)s]    %%(message)s".toList),
         ("log_date_format".toList, "%%Y-%%m-%%d %%I:%%M:%%S %%p".toList),
         ("log_name".toList, "clients".toList),
         ("log_stdout".toList, "True".toList),
         ("clean_log_on_start".toList, "True".toList)]
      sections := [("TOOLS".toList,
          [("log_level".toList, "ALL".toList),
           ("log_name".toList, "tools".toList),
           ("log_file".toList, "None".toList),
           ("log_stdout".toList, "False".toList)]),
        ("AAUTH".toList,
          [("log_level".toList, "ALL".toList),
           ("log_name".toList, "aauth".toList),
           ("log_file".toList, "None".toList),
           ("log_stdout".toList, "False".toList),
           ("client_type".toList, "JSONWSP".toList),
           ("service_description".toList, "http://localhost:8888/AttributeAuthority/jsonwsp/description".toList),
           ("cred_type".toList, "0".toList),
           ("cred_user".toList, "Dan".toList),
           ("cred_pass".toList, "admin".toList),
           ("key_size".toList, "2048".toList)]),
        ("PAUTH".toList,
          [("log_level".toList, "ALL".toList),
           ("log_name".toList, "aauth".toList),
           ("log_file".toList, "None".toList),
           ("log_stdout".toList, "False".toList),
           ("client_type".toList, "JSONWSP".toList),
           ("service_description".toList, "http://localhost:8888/PolicyAuthority/jsonwsp/description".toList)])] }

/-- The values meant: with `%` for `%%`. -/
def shippedValues : Config where
  service :=
    { defaults := [("db_type".toList, "mysql".toList),
         ("db_name".toList, "hgaa".toList),
         ("db_user".toList, "apps".toList),
         ("db_pass".toList, "PUTYOURPASSWORDHERE".toList),
         ("db_port".toList, "3306".toList),
         ("db_host".toList, "localhost".toList),
         ("log_level".toList, "ALL".toList),
         ("log_file".toList, "hgaa_service.log".toList),
         ("log_format".toList, "%(asctime)s:    [%(levelname)s: %(name)s]    %(message)s".toList),
         ("log_date_format".toList, "%Y-%m-%d %I:%M:%S %p".toList),
         ("log_name".toList, "services".toList),
         ("log_stdout".toList, "True".toList),
         ("sql_log_level".toList, "ALL".toList),
         ("sql_log_file".toList, "sql.log".toList),
         ("sql_log_format".toList, "%(asctime)s:    [%(levelname)s: %(name)s]    %(message)s".toList),
         ("sql_log_date_format".toList, "%Y-%m-%d %I:%M:%S %p".toList),
         ("sql_log_stdout".toList, "True".toList),
         ("clean_log_on_start".toList, "True".toList),
         ("service_enabled".toList, "True".toList),
         ("pass_pepper".toList, "PUTYOURPEPPERHERE".toList)]
      sections := [("TOOLS".toList,
          [("log_level".toList, "ALL".toList),
           ("log_name".toList, "tools".toList),
           ("log_file".toList, "None".toList),
           ("log_stdout".toList, "False".toList)]),
        ("LADON".toList,
          [("log_name".toList, "ladon".toList),
           ("log_level".toList, "ALL".toList),
           ("log_file".toList, "ladon.log".toList),
           ("log_format".toList, "%(asctime)s:    [%(levelname)s: %(name)s]    %(message)s".toList),
           ("log_date_format".toList, "%Y-%m-%d %I:%M:%S %p".toList),
           ("log_stdout".toList, "True".toList),
           ("service_port".toList, "8888".toList),
           ("service_host".toList, "".toList)]),
        ("AAUTH".toList,
          [("log_level".toList, "ALL".toList),
           ("log_name".toList, "aauth".toList),
           ("log_file".toList, "None".toList),
           ("log_stdout".toList, "False".toList),
           ("service_enabled".toList, "True".toList),
           ("aauth_id".toList, "localhost".toList),
           ("a_uri".toList, "hgabac://localhost:8888".toList),
           ("ac_expire_length".toList, "3600".toList),
           ("rev_url".toList, "".toList),
           ("key_pass".toList, "PUTYOURPASSWORDHERE".toList),
           ("key_file".toList, "keys/aauth_rsa_key.bin".toList)]),
        ("PAUTH".toList,
          [("log_level".toList, "ALL".toList),
           ("log_name".toList, "pauth".toList),
           ("log_file".toList, "None".toList),
           ("log_stdout".toList, "False".toList),
           ("service_enabled".toList, "True".toList),
           ("pauth_name".toList, "localhost".toList),
           ("pauth_uid".toList, "hgabac://localhost:8888".toList)])] }
  client :=
    { defaults := [("log_level".toList, "ALL".toList),
         ("log_file".toList, "hgaa_client.log".toList),
         ("log_format".toList, "%(asctime)s:    [%(levelname)s: %(name)s]    %(message)s".toList),
         ("log_date_format".toList, "%Y-%m-%d %I:%M:%S %p".toList),
         ("log_name".toList, "clients".toList),
         ("log_stdout".toList, "True".toList),
         ("clean_log_on_start".toList, "True".toList)]
      sections := [("TOOLS".toList,
          [("log_level".toList, "ALL".toList),
           ("log_name".toList, "tools".toList),
           ("log_file".toList, "None".toList),
           ("log_stdout".toList, "False".toList)]),
        ("AAUTH".toList,
          [("log_level".toList, "ALL".toList),
           ("log_name".toList, "aauth".toList),
           ("log_file".toList, "None".toList),
           ("log_stdout".toList, "False".toList),
           ("client_type".toList, "JSONWSP".toList),
           ("service_description".toList, "http://localhost:8888/AttributeAuthority/jsonwsp/description".toList),
           ("cred_type".toList, "0".toList),
           ("cred_user".toList, "Dan".toList),
           ("cred_pass".toList, "admin".toList),
           ("key_size".toList, "2048".toList)]),
        ("PAUTH".toList,
          [("log_level".toList, "ALL".toList),
           ("log_name".toList, "aauth".toList),
           ("log_file".toList, "None".toList),
           ("log_stdout".toList, "False".toList),
           ("client_type".toList, "JSONWSP".toList),
           ("service_description".toList, "http://localhost:8888/PolicyAuthority/jsonwsp/description".toList)])] }

/-- A configuration as `get` returns it: the values of `DEFAULT` are repeated in the other sections. -/
def Ini.flat (i : Ini) : Ini := { i with sections := i.sections.map (fun s => (s.1, s.2 ++ i.defaults)) }

/-- The shipped configuration as `get` returns it. -/
def shippedConfig : Config where
  service := shippedValues.service.flat
  client := shippedValues.client.flat

end Verif
