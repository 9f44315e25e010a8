/-!
# Python exceptions as values

`/repo/ngmix/gexceptions.py` lines 1-60 defines the ngmix exception classes; the
rest are Python built-ins that the modelled code can raise.  Only the class of
an exception is modelled, not its message.
-/

namespace Ngmix

/-- Exception classes that the modelled functions can raise
(`/repo/ngmix/gexceptions.py`, plus Python built-ins). -/
inductive PyErr
  | gmixRange      -- ngmix.GMixRangeError
  | gmixFatal      -- ngmix.GMixFatalError
  | bootPSF        -- ngmix.BootPSFFailure
  | psfFlux        -- ngmix.PSFFluxFailure
  | fftRange       -- ngmix.FFTRangeError
  | value          -- ValueError
  | type           -- TypeError
  | runtime        -- RuntimeError
  | key            -- KeyError
  | attribute      -- AttributeError
  | assertion      -- AssertionError
  | index          -- IndexError
  | zeroDiv        -- ZeroDivisionError
  | unbound        -- UnboundLocalError
  | linAlg         -- numpy.linalg.LinAlgError
  | overflow       -- OverflowError
  | notImpl        -- NotImplementedError
  | stopIter       -- StopIteration
  | recursion      -- RecursionError
  deriving DecidableEq, Repr

end Ngmix
