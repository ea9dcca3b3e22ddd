import Verif.Model.Extensions
/-!
# What may be expected of extensions

Documentation: `docs/configuration/extension-configuration.rst`, `SilKitExtensions.hpp:38-47` ("The first match is loaded"), `SilKitExtensionABI.h:12-21` ("SIL Kit
version must match, otherwise the extension will not be loaded").
-/
namespace SilKit.Extensions.Spec
open SilKit.Extensions

/-- The library is made for this SIL Kit: same version, language standard, compiler, threading and debug mode. -/
def MadeFor (h : Host) (lib : Library) : Prop :=
  ∃ d, lib.descriptor = some d ∧ (d.major, d.minor, d.patch) = (h.major, h.minor, h.patch) ∧
    d.build.getD 0 0 = h.cxx ∧ d.build.getD 1 0 = h.compiler ∧ d.build.getD 2 0 = h.multithread ∧ d.build.getD 3 0 = h.debug ∧ d.build.getD 4 0 = 0

/-- The directories a list of hints stands for. -/
def directories (w : World) (hints : List Str) : List Str :=
  hints.filterMap (fun hint => if "ENV:".toList.isPrefixOf hint then w.env (hint.drop 4) else some hint)

/-- All directories: those of the configuration first, then the environment variable, the working directory and the directory of the program. -/
def searched (w : World) (hints : List Str) (programDir : Str) : List Str :=
  directories w hints ++ (w.env "SILKIT_EXTENSION_PATH".toList).toList ++ [['.'], programDir]

/-- The files that are looked for, in order: for each directory the plain name, and then debug before release. -/
def files (w : World) (name : Str) (hints : List Str) (programDir : Str) : List Str :=
  (searched w hints programDir).flatMap (fun dir =>
    [name, "lib".toList ++ name ++ "d.so".toList, name ++ "d.so".toList, "lib".toList ++ name ++ ".so".toList, name ++ ".so".toList].map (join dir))

/-- There is a library made for this SIL Kit in the file `p`. -/
def Suitable (h : Host) (w : World) (p : Str) : Prop := w.present p = some true ∧ ∃ lib, w.library (absolute w p) = some lib ∧ MadeFor h lib

/-- The directory of the program is known and its path begins with a slash or is a dot, all files can be examined, and the descriptors have a system name. -/
def Calm (w : World) (name : Str) (hints : List Str) (dir : Str) : Prop :=
  processPath w = some dir ∧ (dir.head? = some '/' ∨ dir = ['.']) ∧ (∀ p ∈ files w name hints dir, w.present p ≠ none) ∧
  (∀ p lib d, w.library p = some lib → lib.descriptor = some d → d.system ≠ none)

/-- The library has the two functions, and its object can be made. -/
def Complete (lib : Library) : Prop := (∃ i, lib.create = some (some i)) ∧ lib.release = true

/-- A history of requests, and their answers. -/
def run (h : Host) (rs : List Request) : Process × List Answer :=
  rs.foldl (fun s r => ((request h s.1 r).1, s.2 ++ [(request h s.1 r).2])) ({}, [])

end SilKit.Extensions.Spec
