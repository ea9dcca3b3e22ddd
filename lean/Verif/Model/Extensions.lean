/-!
# Model of the loading of extensions

Source: `SilKit/source/extensions/SilKitExtensions.cpp`, `SilKit/source/extensions/detail/LoadExtension_posix.cpp`,
`SilKit/source/extensions/SilKitExtensionImpl/DllCache.hpp`, `SilKitExtensionLoader.hpp`, `CreateMdf4Tracing.cpp`,
`SilKit/source/extensions/SilKitExtensionApi/SilKitExtensionMacros.hpp`.

The operating system (environment variables, files, what is in a shared library) is a `World`, which may be another one at every request. The POSIX variant is
modelled. Texts are lists of characters. Simplified: names and hints contain no zero characters, the name of an extension is not empty, and the log is left out;
one thread makes the requests (the static caches are not protected).
-/
namespace SilKit.Extensions

abbrev Str := List Char

/-- The interfaces an extension can be asked for: `ITraceMessageSinkFactory` and `IReplayDataProvider`, CreateMdf4Tracing.cpp:27, 34. -/
inductive Factory
  | sink | replay
deriving Repr, DecidableEq

/-- An object of an extension: which one it is, and the interfaces that `dynamic_cast` finds in it. -/
structure Instance where
  id : Nat
  provides : List Factory
deriving Repr, DecidableEq

/-- `SilKitExtensionDescriptor`, SilKitExtensionABI.h:43-52; `system` is none for a null pointer. -/
structure Descriptor where
  major : Nat
  minor : Nat
  patch : Nat
  system : Option Str
  build : List Nat
deriving Repr, DecidableEq

/-- A shared library: its three symbols, none if the symbol is not there. `CreateExtension` returns null if the constructor throws
(SilKitExtensionMacros.hpp:33-44). -/
structure Library where
  descriptor : Option Descriptor
  create : Option (Option Instance)
  release : Bool
deriving Repr, DecidableEq

/-- What is compiled into SIL Kit: its version, `SILKIT_MAKE_BUILDINFOS()` (SilKitExtensionMacros.hpp:13-17; the fifth element is zero) and `BuildinfoSystem()`. -/
structure Host where
  major : Nat
  minor : Nat
  patch : Nat
  cxx : Nat
  compiler : Nat
  multithread : Nat
  debug : Nat
  system : Str
deriving Repr, DecidableEq

def Host.build (h : Host) : List Nat := [h.cxx, h.compiler, h.multithread, h.debug, 0]

/-- The operating system: `getenv`; `std::filesystem::exists` (none: it throws); `dlopen` of an absolute path (none: it fails); the working directory; what
`readlink` gives for the running program (none: it fails). -/
structure World where
  env : Str → Option Str
  present : Str → Option Bool
  library : Str → Option Library
  cwd : Str
  program : Option Str

/-- `std::filesystem::path::operator/`. -/
def join (dir file : Str) : Str :=
  if file.head? = some '/' ∨ dir = [] then file else if dir.getLast? = some '/' then dir ++ file else dir ++ '/' :: file

/-- `std::filesystem::absolute`. -/
def absolute (w : World) (p : Str) : Str := if p.head? = some '/' then p else join w.cwd p

/-- `dirname` of an absolute path that does not end with a slash. -/
def dirname (p : Str) : Str :=
  let d := ((p.reverse.dropWhile (· != '/')).drop 1).reverse
  if d = [] then ['/'] else d

/-- `PATH_MAX` of Linux. -/
def pathMax : Nat := 4096

/-- `GetProcessPath`, LoadExtension_posix.cpp:62-76: `readlink` writes at most `PATH_MAX` characters; `buf.at` throws (none) if there is no place for the zero. -/
def processPath (w : World) : Option Str :=
  match w.program with
  | none => some ['.']
  | some p => if p.length < pathMax then some (dirname p) else none

/-- The candidates of `FindLibrary`, SilKitExtensions.cpp:117-124. -/
def candidates (name : Str) : List Str :=
  [name, "lib".toList ++ name ++ "d".toList ++ ".so".toList, name ++ "d".toList ++ ".so".toList, "lib".toList ++ name ++ ".so".toList, name ++ ".so".toList]

/-- The inner loop of `FindLibrary`, SilKitExtensions.cpp:141-149; none: an exception. -/
def inDirectory (w : World) (dir : Str) : List Str → Option (List Str)
  | [] => some []
  | c :: cs =>
    match w.present (join dir c) with
    | none => none
    | some b => (inDirectory w dir cs).map (fun rest => if b then absolute w (join dir c) :: rest else rest)

/-- `FindLibrary`, SilKitExtensions.cpp:114-152. -/
def findLibrary (w : World) (name : Str) : List Str → Option (List Str)
  | [] => some []
  | hint :: hints =>
    if hint.take 4 = "ENV:".toList then
      match w.env (hint.drop 4) with
      | none => findLibrary w name hints
      | some dir =>
        match inDirectory w dir (candidates name) with
        | none => none
        | some here => (findLibrary w name hints).map (here ++ ·)
    else
      match inDirectory w hint (candidates name) with
      | none => none
      | some here => (findLibrary w name hints).map (here ++ ·)

/-- `isBuildCompatible`, SilKitExtensions.cpp:41-49. -/
def buildCompatible (mine other : List Nat) : Bool :=
  (List.range 5).foldl (fun ok i => ok && mine.getD i 0 == other.getD i 0) true

/-- What `check_lib` makes of a path. -/
inductive Check
  /-- `dlopen` fails. -/
  | unreadable
  /-- The library is open, and has no descriptor or a wrong one: an `ExtensionError`, which is caught. -/
  | rejected
  /-- `std::string` of a null pointer. -/
  | undefined
  | accepted (lib : Library)
deriving Repr, DecidableEq

/-- `check_lib` with `VerifyExtension`, SilKitExtensions.cpp:51-107, 184-207; another name of the system is only logged. -/
def check (h : Host) (w : World) (path : Str) : Check :=
  match w.library path with
  | none => .unreadable
  | some lib =>
    match lib.descriptor with
    | none => .rejected
    | some d =>
      if d.major ≠ h.major ∨ d.minor ≠ h.minor ∨ d.patch ≠ h.patch then .rejected
      else if !buildCompatible h.build d.build then .rejected
      else match d.system with
        | none => .undefined
        | some _ => .accepted lib

/-- How `LoadExtension` ends: with a pointer (none: a null pointer), or with an exception. -/
inductive Loaded
  | pointer (path : Str) (inst : Option Instance)
  | extensionError
  | otherException
  | undefined
deriving Repr, DecidableEq

/-- The loop over the paths and the end of `LoadExtension`, SilKitExtensions.cpp:209-250. Also: the libraries that were opened. None of them is closed here. -/
def search (h : Host) (w : World) : List Str → Loaded × List Str
  | [] => (.extensionError, [])
  | p :: ps =>
    match check h w p with
    | .unreadable => search h w ps
    | .rejected => ((search h w ps).1, p :: (search h w ps).2)
    | .undefined => (.undefined, [p])
    | .accepted lib =>
      match lib.create with
      | none => (.extensionError, [p])
      | some inst => if lib.release then (.pointer p inst, [p]) else (.extensionError, [p])

/-- `LoadExtension`, SilKitExtensions.cpp:171-182; `hints`: `Extensions/SearchPathHints` of the configuration. -/
def load (h : Host) (w : World) (name : Str) (hints : List Str) : Loaded × List Str :=
  match processPath w with
  | none => (.otherException, [])
  | some dir =>
    match findLibrary w name (hints ++ ["ENV:SILKIT_EXTENSION_PATH".toList, ['.'], dir]) with
    | none => (.otherException, [])
    | some paths => search h w paths

/-- `DllCache`, DllCache.hpp:63-65: the name, the extension and where it is from. -/
abbrev Cache := Option (Str × Str × Instance)

/-- The two static caches (SilKitExtensionLoader.hpp:25, one for each `FactoryT`), and the libraries that are open. -/
structure Process where
  caches : Factory → Cache := fun _ => none
  opened : List Str := []

structure Request where
  factory : Factory
  name : Str
  hints : List Str
  world : World

/-- How a request ends. -/
inductive Answer
  | extension (path : Str) (inst : Instance)
  | extensionError
  | otherException
  | undefined
deriving Repr, DecidableEq

/-- The `dynamic_cast` of `SilKitExtensionLoader`, SilKitExtensionLoader.hpp:28-44. -/
def castTo (f : Factory) (path : Str) (i : Instance) : Answer := if f ∈ i.provides then .extension path i else .extensionError

/-- `SilKitExtensionLoader` with `DllCache::Get`, SilKitExtensionLoader.hpp:21-45, DllCache.hpp:28-61. A null pointer is dereferenced. -/
def request (h : Host) (s : Process) (r : Request) : Process × Answer :=
  match s.caches r.factory with
  | some (name, path, inst) => if r.name = name then (s, castTo r.factory path inst) else (s, .extensionError)
  | none =>
    let l := load h r.world r.name r.hints
    let s := { s with opened := s.opened ++ l.2 }
    match l.1 with
    | .pointer path (some inst) =>
      ({ s with caches := fun f => if f = r.factory then some (r.name, path, inst) else s.caches f }, castTo r.factory path inst)
    | .pointer _ none => (s, .undefined)
    | .extensionError => (s, .extensionError)
    | .otherException => (s, .otherException)
    | .undefined => (s, .undefined)

end SilKit.Extensions
