import Verif.Model.CodegenRun

/-!
# What the CMake files build and install

CMakeLists.txt, test/CMakeLists.txt, test/codegen/CMakeLists.txt, examples/CMakeLists.txt, benchmark/CMakeLists.txt, cmake/clang_tidy.cmake and
cmake/option-config.cmake.in.  A variable is a `Bool`: CMake's false constants are `false`, everything else is `true`.
-/

namespace Opt.CMake

open Run (Text)

/-- the variables declared by `option()`, CMakeLists.txt 5-14 -/
inductive Var
  | test | examples | benchmark | codegenTest | useSanitizer | useClangTidy | install | useNatvis | useNatstepfilter | useLibassert
deriving DecidableEq

/-- what a caller defined, with `-D` or `set`, before the file is read -/
abbrev Defs : Type := Var → Option Bool

/-- the third argument of `option()`, CMakeLists.txt 5-14; `top` is PROJECT_IS_TOP_LEVEL -/
def initial (top : Bool) : Var → Bool
  | .test => top
  | .examples => top
  | .benchmark => false
  | .codegenTest => true
  | .useSanitizer => true
  | .useClangTidy => false
  | .install => false
  | .useNatvis => true
  | .useNatstepfilter => false
  | .useLibassert => true

/-- the value of a variable after `option()`: it leaves a defined variable as it is (policy CMP0077, which `cmake_minimum_required(VERSION 3.24)`
in line 1 sets to NEW) -/
def value (top : Bool) (d : Defs) (v : Var) : Bool := (d v).getD (initial top v)

/-- what the files look for on the machine -/
structure Machine where
  /-- `find_package(Python3)` -/
  python : Bool
  /-- `find_program(llvm_objdump_path)`, test/codegen/CMakeLists.txt 44-46 -/
  objdump : Bool
  /-- `find_program(clang_tidy_binary)`, cmake/clang_tidy.cmake 25 -/
  clangTidy : Bool
  /-- `CMAKE_GENERATOR MATCHES "Unix Makefiles|Ninja"`, cmake/clang_tidy.cmake 4 -/
  makefiles : Bool
  /-- the download of run-clang-tidy.py worked, cmake/clang_tidy.cmake 11-19 -/
  network : Bool

/-- what may come out -/
inductive Item
  /-- the target `option` -/
  | library
  /-- `option-test` and `run-option-test` -/
  | test
  /-- `option-test` is linked with libassert -/
  | libassert
  /-- `option-test` is compiled with sanitizers -/
  | sanitizer
  /-- the target `clang-tidy` -/
  | clangTidy
  /-- the targets `example-*` -/
  | examples
  /-- the target `option-examples`, which builds them; no file adds it -/
  | optionExamples
  /-- `check-option-examples` -/
  | checkExamples
  /-- `build-benchmark-*` -/
  | benchmark
  /-- the library `option-codegen-test` -/
  | codegen
  /-- `run-option-codegen-test` -/
  | runCodegen
  /-- option.natvis is a source of the users of `option` -/
  | natvis
  /-- option.natstepfilter is a source of the users of `option` -/
  | natstepfilter
  /-- the rules for `cmake --install` -/
  | install
deriving DecidableEq

/-- test/CMakeLists.txt 1-84 (`USE_LIBASSERT` 52-71, `USE_CLANG_TIDY` 73-80).  cmake/sanitizers.cmake is included nowhere, and
`USE_SANITIZER` and `target_add_sanitizer` are used nowhere. -/
def testDir (m : Machine) (val : Var → Bool) : List Item :=
  [.test] ++ (if val .useLibassert then [.libassert] else []) ++
    -- cmake/clang_tidy.cmake 4-6, 14-19, 20-24, 25-29, 38-46
    if val .useClangTidy then if m.makefiles && m.network && m.python && m.clangTidy then [.clangTidy] else [] else []

/-- examples/CMakeLists.txt 1-25 -/
def examplesDir (m : Machine) : List Item := [.examples] ++ if m.python then [.checkExamples] else []

/-- benchmark/CMakeLists.txt 1-29 -/
def benchmarkDir (m : Machine) : List Item := if m.python then [.benchmark] else []

/-- test/codegen/CMakeLists.txt 1-61 -/
def codegenDir (m : Machine) : List Item := [.codegen] ++ if m.python then if m.objdump then [.runCodegen] else [] else []

/-- CMakeLists.txt 16-112.  OPTION_EXTRA_FLAGS is left out. -/
def configure (top : Bool) (m : Machine) (d : Defs) : List Item :=
  let val := value top d
  [.library] ++
  (if val .useNatvis then [.natvis] else []) ++
  (if val .useNatstepfilter then [.natstepfilter] else []) ++
  if !val .install then
    (if val .test then testDir m val else []) ++
    (if val .examples then examplesDir m else []) ++
    (if val .benchmark then benchmarkDir m else []) ++
    (if val .codegenTest then codegenDir m else [])
  else [.install]

/-- a target that `cmake --build` makes without being asked for (`add_executable` and `add_library` without EXCLUDE_FROM_ALL; the variable
`exclude_from_all` of CMakeLists.txt 47-59 is never set; examples 6 and benchmark 12, 24 exclude theirs; custom targets are not in `all`) -/
def inAll : Item → Bool
  | .test => true
  | .codegen => true
  | _ => false

/-! ## Installation -/

/-- `p/d` -/
def join (p d : Text) : Text := p ++ '/' :: d

/-- IS_ABSOLUTE, on systems where paths start with a slash -/
def isAbsolute (d : Text) : Bool := d.head? == some '/'

/-- `install(... DESTINATION d)` with the prefix `p`; also CMAKE_INSTALL_FULL_<dir> of GNUInstallDirs for DATAROOTDIR, with the prefix at the time
of configuration (other than `/`, for which GNUInstallDirs has a rule of its own) -/
def full (p d : Text) : Text := if isAbsolute d then d else join p d

/-- the two directories of CMakeLists.txt 62-112 -/
structure Dirs where
  /-- CMAKE_INSTALL_DATAROOTDIR -/
  dataroot : Text
  /-- CMAKE_INSTALL_INCLUDEDIR -/
  includes : Text

/-- the files that `cmake --install` with prefix `p` writes, other than the config files: CMakeLists.txt 101-111 -/
def installed (dirs : Dirs) (p : Text) : List Text :=
  [join (full p dirs.includes) (txt"opt/option.hpp"), join (full p dirs.includes) (txt"opt/option_fwd.hpp"),
    join (join (full p dirs.dataroot) (txt"debugger")) (txt"option.natvis"),
    join (join (full p dirs.dataroot) (txt"debugger")) (txt"option.natstepfilter")]

/-- what `find_package(option)` makes a target that links `option` use -/
structure Package where
  /-- INTERFACE_INCLUDE_DIRECTORIES of the imported target -/
  includeDirs : List Text
  /-- INTERFACE_SOURCES -/
  sources : List Text

/-- option-config.cmake.in 1-10, as written by `configure_package_config_file` when the prefix was `p`, read from an installation under the prefix
`q`, in a project that defined the variables `d`.  The file option-targets.cmake that CMake exports (CMakeLists.txt 88-99) finds its own
prefix; it has the include directory of `target_include_directories` (25-28) and that of `install` (92).  `@CMAKE_INSTALL_FULL_DATAROOTDIR@` is replaced at the time of configuration. -/
def findPackage (dirs : Dirs) (p q : Text) (d : Defs) : Package where
  includeDirs := [join q (txt"include"), full q dirs.includes]
  sources :=
    (if (d .useNatvis).getD true then [join (full p dirs.dataroot) (txt"debugger/option.natvis")] else []) ++
    (if (d .useNatstepfilter).getD true then [join (full p dirs.dataroot) (txt"debugger/option.natstepfilter")] else [])

end Opt.CMake
