import Verif.Basic
import Verif.Props.BitTuples
import Verif.Props.RandBits
import Verif.Props.Rank
import Verif.Props.StdTest
import Verif.Props.Kstest
import Verif.Props.Vtest
import Verif.Props.MPower
import Verif.Props.Kiss
import Verif.Props.CaUvag
import Verif.Props.Aes
import Verif.Props.Threefish
import Verif.Props.BitString
import Verif.Props.Sts
import Verif.Props.Count1s
import Verif.Props.SmallTests
import Verif.Props.Missing
import Verif.Props.WordTests
import Verif.Props.Util
import Verif.Model.Perms
import Verif.Props.Perms
import Verif.Model.Runs
import Verif.Props.Runs
import Verif.Model.Craps
import Verif.Props.Craps
import Verif.Model.Birthdays
import Verif.Props.Birthdays
import Verif.Model.FillTree
import Verif.Props.FillTree
import Verif.Model.MinDist
import Verif.Props.MinDist
import Verif.Model.Parking
import Verif.Props.Parking
import Verif.Model.Cli
import Verif.Props.Cli
import Verif.Model.GnuR
import Verif.Proof.GnuR
import Verif.Props.GnuR
import Verif.Props.GnuRValue
import Verif.Props.Instances
import Verif.Model.FileInput
import Verif.Proof.FileInput
import Verif.Props.FileInput
import Verif.Props.FileNumerals
import Verif.Model.RankTests
import Verif.Proof.RankTests
import Verif.Proof.RankCount
import Verif.Props.RankTests
import Verif.Model.Sums
import Verif.Props.Sums
import Verif.Model.Sphere3
import Verif.Props.Sphere3
import Verif.Model.Dct
import Verif.Proof.Dct
import Verif.Props.Dct
import Verif.Model.KsDist
import Verif.Props.KsDist
import Verif.Model.Chisq
import Verif.Props.Chisq
import Verif.Proof.KsExact
import Verif.Proof.KsExact2
import Verif.Props.KsExact
import Verif.Proof.Uniform
import Verif.Props.MissingMoments
import Verif.Proof.WindowChi
import Verif.Model.SerialStat
import Verif.Props.SerialMean
import Verif.Model.Count1sStat
import Verif.Props.Count1sMean
import Verif.Model.Operm5Table
import Verif.Model.Operm5Stat
import Verif.Proof.Orders
import Verif.Proof.Operm5
import Verif.Proof.Operm5Sums
import Verif.Proof.Operm5Lag
import Verif.Proof.Operm5Form
import Verif.Props.Operm5Mean
import Verif.Props.VtestMean
import Verif.Model.PermStat
import Verif.Props.PermMean
import Verif.Model.RunsStat
import Verif.Proof.RunsTail
import Verif.Proof.RunsCov
import Verif.Proof.RunsForm
import Verif.Props.RunsMean
import Verif.Model.Devices
import Verif.Props.Devices
import Verif.Model.Select
import Verif.Props.Select
import Verif.Model.GcdStat
import Verif.Proof.GcdLaw
import Verif.Proof.IidTrials
import Verif.Props.GcdMean
import Verif.Props.GcdExcess
import Verif.Model.SqueezeStat
import Verif.Proof.Stopping
import Verif.Proof.SqueezeLaw
import Verif.Proof.SqueezeNum
import Verif.Proof.SqueezeBounds
import Verif.Props.SqueezeMean
import Verif.Model.FillStat
import Verif.Proof.FillLaw
import Verif.Proof.FillLink
import Verif.Proof.FillNum
import Verif.Props.FillTreeLaw
import Verif.Props.FillKeyLaw
import Verif.Proof.BlockTrials
import Verif.Props.RankMean
import Verif.Model.ByteStat
import Verif.Props.ByteMean
import Verif.Model.BitdistStat
import Verif.Proof.BitdistLaw
import Verif.Props.BitdistMean
import Verif.Model.MostExtreme
import Verif.Props.MostExtreme
import Verif.Model.CrapsStat
import Verif.Proof.Rolls
import Verif.Proof.CrapsLaw
import Verif.Proof.RatLaw
import Verif.Props.CrapsMean
import Verif.Model.XtestStats
import Verif.Proof.CircleRuns
import Verif.Props.XtestMean
import Verif.Proof.LinPow
import Verif.Proof.Periods
import Verif.Proof.Mwc
import Verif.Props.KissPeriod
import Verif.Proof.LinRel
import Verif.Proof.PeriodPair
import Verif.Proof.SuperDuper
import Verif.Proof.RValue
import Verif.Props.GnuRPeriod
import Verif.Proof.KnuthOrder
import Verif.Props.KnuthPeriod
import Verif.Proof.MtPoly
import Verif.Proof.MtChain
import Verif.Proof.Mersenne
import Verif.Props.MtPeriod
import Verif.Props.MtEqui
import Verif.Model.Listing
import Verif.Props.Listing
import Verif.Model.RgbKstest
import Verif.Props.RgbKstest
import Verif.Model.MinDistTest
import Verif.Proof.BallPairs
import Verif.Proof.UnifSeq
import Verif.Props.SphereLaw
import Verif.Props.TestListing
import Verif.Props.Parsecl
import Verif.Props.Reseed
import Verif.Props.KuiperTail
import Verif.Props.Histogram
import Verif.Props.Kuiper
import Verif.Props.StreamPeriod
import Verif.Props.Startup
import Verif.Props.Template
import Verif.Props.Monobit2
import Verif.Props.Ending
import Verif.Props.BirthTest
import Verif.Props.RankPower
import Verif.Props.KsPower
import Verif.Props.FixedPoint
import Verif.Props.Mirror
import Verif.Props.Invariant
import Verif.Props.MonobitPower
import Verif.Props.Cyclic
import Verif.Props.Countx
import Verif.Props.Clock
import Verif.Props.MissingPower
import Verif.Props.Rngav
import Verif.Props.KuiperPower
import Verif.Props.ChisqPower
import Verif.Props.RunsPower
import Verif.Props.OrderPower
import Verif.Props.SerialPower
import Verif.Props.Count1sPower
import Verif.Props.GcdPower
import Verif.Props.RgbKstestPower
import Verif.Props.CrapsPower
import Verif.Props.SqueezePower
import Verif.Props.DhRunsPower
import Verif.Props.Rank68Power
import Verif.Props.BitdistPower
import Verif.Props.Monobit2Power
import Verif.Props.SpherePower
import Verif.Model.ParkingTest
import Verif.Props.ParkingPower
import Verif.Props.Operm5Power
import Verif.Props.BirthPower
import Verif.Props.DctPower
import Verif.Props.FillTreePower
import Verif.Props.FillTree2Power
import Verif.Model.FillRotate
import Verif.Props.FillRotate
import Verif.Props.KuiperIntervals
