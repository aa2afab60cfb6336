/-
The leap seconds that have been announced (IERS Bulletin C).
-/
namespace Spec

/-- Year and month at whose beginning TAI−UTC was increased by one second. -/
def announcedLeapSeconds : List (Int × Int) :=
  [(1972, 7), (1973, 1), (1974, 1), (1975, 1), (1976, 1), (1977, 1), (1978, 1), (1979, 1), (1980, 1), (1981, 7), (1982, 7), (1983, 7),
   (1985, 7), (1988, 1), (1990, 1), (1991, 1), (1992, 7), (1993, 7), (1994, 7), (1996, 1), (1997, 7), (1999, 1), (2006, 1), (2009, 1),
   (2012, 7), (2015, 7), (2017, 1)]

end Spec
