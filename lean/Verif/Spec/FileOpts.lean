/-! Options by name -/
namespace Viscid.Spec.FileOpts

/-- The value of an option: the last one given -/
def given {V : Type} (opts : List (String × V)) (k : String) : Option V := (opts.reverse.find? (·.1 == k)).map (·.2)

end Viscid.Spec.FileOpts
