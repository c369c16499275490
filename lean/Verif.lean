import Verif.Props.Solver
import Verif.Props.FewClues
import Verif.Props.Board
import Verif.Props.Sets
import Verif.Props.Positions
import Verif.Props.Line
import Verif.Props.Block
import Verif.Props.Generate
import Verif.Props.Shuffle
import Verif.Props.Canonical
import Verif.Props.CanonicalExample
import Verif.Props.Generator
import Verif.Props.Strategy
import Verif.Props.StrategyExamples
import Verif.Props.StrategyFalse
import Verif.Props.StrategyComplete
import Verif.Props.StrategyNews
import Verif.Props.Numbers
import Verif.Props.Print
import Verif.Props.PrintExamples
import Verif.Props.Singles
import Verif.Props.Errors
import Verif.Props.GenerateReach
import Verif.Props.Prefix
import Verif.Props.Together
import Verif.Props.Order
import Verif.Props.Moved
import Verif.Props.GenerateAgain
import Verif.Props.Few
import Verif.Props.Sizes
import Verif.Props.Easier
import Verif.Props.Shown
import Verif.Props.More
import Verif.Props.GridState
import Verif.Props.Rectangles
import Verif.Props.AlmostLocked
import Verif.Props.Links
import Verif.Props.CanonHard
import Verif.Props.Uniform
import Verif.Props.Derivable
import Verif.Props.Readers
import Verif.Props.Obtainable
import Verif.Props.Euler
import Verif.Props.Automorphisms
import Verif.RepoTests
import Verif.Props.RawPositions
import Verif.Props.RawText
import Verif.Props.RawCanonical
import Verif.Props.FirstPass
