import Verif.Base.Str

/-!
# The files in the test data of `/repo`

Written by `tools/hcl2lean.py`.
-/

namespace Verif.TaskSet.Texts
open Verif

/-- internal/taskset/testdata/demo.hcl -/
def demoText : Str := [
  b!"target \"demo\" \"msg1\" {\n",
  b!"    string = \"!abbcF\"\n",
  b!"    max_concurrency = 3\n",
  b!"}\n",
  b!"\n",
  b!"target \"demo\" \"msg2\" {\n",
  b!"    string = \".rvy n fv rxnp ruG\"\n",
  b!"    max_concurrency = 3\n",
  b!"}\n",
  b!"\n",
  b!"target \"demo\" \"msg3\" {\n",
  b!"    string = \".revczni n fv qyebj ruG\"\n",
  b!"    max_concurrency = 3\n",
  b!"}\n",
  b!"\n",
  b!"task \"demo/echo\" \"msg1/decrypted\" {\n",
  b!"    after = [\"msg1/reverse\", \"msg1/rotate\"]\n",
  b!"    target = \"msg1\"\n",
  b!"}\n",
  b!"\n",
  b!"task \"demo/rev\" \"msg1/reverse\" {\n",
  b!"    target = \"msg1\"\n",
  b!"}\n",
  b!"\n",
  b!"task \"demo/rot13\" \"msg1/rotate\" {\n",
  b!"    target = \"msg1\"\n",
  b!"}\n",
  b!"\n",
  b!"task \"demo/echo\" \"msg2/decrypted\" {\n",
  b!"    after = [\"msg2/reverse\", \"msg2/rotate\"]\n",
  b!"    target = \"msg2\"\n",
  b!"}\n",
  b!"\n",
  b!"task \"demo/rev\" \"msg2/reverse\" {\n",
  b!"    target = \"msg2\"\n",
  b!"}\n",
  b!"\n",
  b!"task \"demo/rot13\" \"msg2/rotate\" {\n",
  b!"    target = \"msg2\"\n",
  b!"}\n",
  b!"\n",
  b!"task \"demo/echo\" \"msg3/decrypted\" {\n",
  b!"    after = [\"msg3/reverse\", \"msg3/rotate\"]\n",
  b!"    target = \"msg3\"\n",
  b!"}\n",
  b!"\n",
  b!"task \"demo/rev\" \"msg3/reverse\" {\n",
  b!"    target = \"msg3\"\n",
  b!"}\n",
  b!"\n",
  b!"task \"demo/rot13\" \"msg3/rotate\" {\n",
  b!"    target = \"msg3\"\n",
  b!"}\n"].flatten

/-- internal/taskset/testdata/measurements.hcl -/
def measurementsText : Str := [
  b!"target \"pg\" \"src\" {}\n",
  b!"\n",
  b!"task \"sh\" \"create-dir\" {\n",
  b!"    args = [\"mkdir\", \"-p\", \"/tmp/pgutil-simple-example\"]\n",
  b!"}\n",
  b!"\n",
  b!"task \"sh\" \"remove-dir\" {\n",
  b!"    after = [\"delete-old-measurements\", \"insert-new-measurements\"]\n",
  b!"    args = [\"rmdir\", \"/tmp/pgutil-simple-example\"]\n",
  b!"}\n",
  b!"\n",
  b!"task \"pg\" \"create-table\" {\n",
  b!"    target = \"src\"\n",
  b!"    sql = \"SELECT now()\"\n",
  b!"}\n",
  b!"\n",
  b!"task \"pg\" \"insert-new-measurements\" {\n",
  b!"    target = \"src\"\n",
  b!"    after = [\"create-table\"]\n",
  b!"    sql = \"SELECT now() + '1 hour'\"\n",
  b!"}\n",
  b!"\n",
  b!"task \"pg\" \"delete-old-measurements\" {\n",
  b!"    target = \"src\"\n",
  b!"    after = [\"insert-new-measurements\"]\n",
  b!"    sql = \"SELECT now() + '1 day'\"\n",
  b!"}\n"].flatten

/-- internal/taskset/parser/testdata/measurements.hcl -/
def parserText : Str := [
  b!"target \"pg\" \"src\" {}\n",
  b!"\n",
  b!"task \"sh\" \"create-dir\" {\n",
  b!"    args = [\"mkdir\", \"-p\", \"/tmp/pgutil-simple-example\"]\n",
  b!"}\n",
  b!"\n",
  b!"task \"sh\" \"remove-dir\" {\n",
  b!"    after = [\"delete-old-measurements\", \"insert-new-measurements\"]\n",
  b!"    args = [\"rmdir\", \"/tmp/pgutil-simple-example\"]\n",
  b!"}\n",
  b!"\n",
  b!"task \"pg\" \"create-table\" {\n",
  b!"    target = \"src\"\n",
  b!"    sql = <<EOF\n",
  b!"CREATE TABLE IF NOT EXISTS measurements (\n",
  b!"  id BIGSERIAL NOT NULL,\n",
  b!"  timestamp TIMESTAMP WITH TIME ZONE NOT NULL,\n",
  b!"  value DOUBLE PRECISION NOT NULL\n",
  b!")\n",
  b!"EOF\n",
  b!"}\n",
  b!"\n",
  b!"task \"pg\" \"insert-new-measurements\" {\n",
  b!"    target = \"src\"\n",
  b!"    after = [\"create-table\"]\n",
  b!"    sql = <<EOF\n",
  b!"INSERT INTO measurements\n",
  b!"  (timestamp, value)\n",
  b!"VALUES\n",
  b!"  (now(), random())\n",
  b!"EOF\n",
  b!"}\n",
  b!"\n",
  b!"task \"pg\" \"delete-old-measurements\" {\n",
  b!"    target = \"src\"\n",
  b!"    after = [\"insert-new-measurements\"]\n",
  b!"    sql = <<EOF\n",
  b!"DELETE FROM measurements\n",
  b!" WHERE timestamp < now() - interval '5 minutes'\n",
  b!"EOF\n",
  b!"}\n"].flatten

end Verif.TaskSet.Texts
