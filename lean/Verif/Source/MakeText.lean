import Verif.Mbe.Lex

/-!
# The text of `Makefile.toml`

The whole file, verbatim, one entry per line (written by `scripts/gen_sources.py` from the file).
-/

set_option autoImplicit false
set_option maxRecDepth 100000

namespace TB.Source

/-- `Makefile.toml:1-115` -/
noncomputable def makeText : List (List Char) := [
  src% "[tasks.test-all]",
  src% "script_runner = \"@rust\"",
  src% "script = ['''",
  src% "use std::{",
  src% "    process::{Command, ExitStatus},",
  src% "    io::{self, Write},",
  src% "    env,",
  src% "};",
  src% "",
  src% "fn main() {",
  src% "    let features = vec![",
  src% "        \"48bits\", \"49bits\", \"50bits\", ",
  src% "        \"51bits\", \"52bits\", \"53bits\", ",
  src% "        \"54bits\", \"55bits\", \"56bits\", ",
  src% "        \"57bits\",",
  src% "    ];",
  src% "    let mut successes = Vec::with_capacity(features.len());",
  src% "    let mut failures = Vec::with_capacity(features.len());",
  src% "    ",
  src% "    for feature in features {",
  src% "        env::set_var(\"TAGGED_BOX_RESERVED_WIDTH\", feature);",
  src% "",
  src% "        let output = Command::new(\"cargo\")",
  src% "            .arg(\"test\")",
  src% "            .output()",
  src% "            .unwrap();",
  src% "",
  src% "        println!(\"Finished testing with feature `{}`, status: {}\", feature, output.status);",
  src% "",
  src% "        if output.status.success() {",
  src% "            successes.push(feature);",
  src% "        } else {",
  src% "            failures.push(feature);",
  src% "        }",
  src% "    }",
  src% "",
  src% "    println!(",
  src% "        \"{} features passed all tests, {} failed\", ",
  src% "        successes.len(), ",
  src% "        failures.len()",
  src% "    );",
  src% "",
  src% "    if failures.len() > 0 {        ",
  src% "        println!(",
  src% "            \"Testing failed on the following features: {}\",",
  src% "            failures.join(\", \"),",
  src% "        );",
  src% "        std::process::exit(101);",
  src% "    }",
  src% "}",
  src% "''']",
  src% "",
  src% "[tasks.miri-all]",
  src% "condition = { channels = [\"nightly\"] }",
  src% "install_crate = { rustup_component_name = \"miri\" }",
  src% "script_runner = \"@rust\"",
  src% "script = ['''",
  src% "use std::{",
  src% "    process::{Command, ExitStatus},",
  src% "    io::{self, Write},",
  src% "    env,",
  src% "};",
  src% "",
  src% "fn main() {",
  src% "    let features = vec![",
  src% "        \"48bits\", \"49bits\", \"50bits\", ",
  src% "        \"51bits\", \"52bits\", \"53bits\", ",
  src% "        \"54bits\", \"55bits\", \"56bits\", ",
  src% "        \"57bits\",",
  src% "    ];",
  src% "    let mut successes = Vec::with_capacity(features.len());",
  src% "    let mut failures = Vec::with_capacity(features.len());",
  src% "",
  src% "    Command::new(\"cargo\")",
  src% "        .arg(\"clean\")",
  src% "        .status()",
  src% "        .unwrap();",
  src% "",
  src% "    Command::new(\"cargo\")",
  src% "        .args(&[\"miri\", \"setup\"])",
  src% "        .status()",
  src% "        .unwrap();",
  src% "    ",
  src% "    for feature in features {        ",
  src% "        env::set_var(\"TAGGED_BOX_RESERVED_WIDTH\", feature);",
  src% "",
  src% "        let output = Command::new(\"cargo\")",
  src% "            .args(&[\"miri\", \"test\"])",
  src% "            .output()",
  src% "            .unwrap();",
  src% "",
  src% "        println!(\"Finished miri with feature `{}`, status: {}\", feature, output.status);",
  src% "",
  src% "        if output.status.success() {",
  src% "            successes.push(feature);",
  src% "        } else {",
  src% "            failures.push(feature);",
  src% "        }",
  src% "    }",
  src% "",
  src% "    println!(",
  src% "        \"{} features passed miri, {} failed\", ",
  src% "        successes.len(), ",
  src% "        failures.len()",
  src% "    );",
  src% "",
  src% "    if failures.len() > 0 {",
  src% "        println!(",
  src% "            \"Miri failed on the following features: {}\",",
  src% "            failures.join(\", \"),",
  src% "        );",
  src% "        std::process::exit(101);",
  src% "    }",
  src% "}",
  src% "''']"]

end TB.Source
