/-! Decidable equality on results with exceptions, so that concrete runs can be decided. -/
deriving instance DecidableEq for Except
