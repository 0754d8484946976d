import Verif.Py
import Verif.Model.Civil

/-!
# Terrestrial Time in `/repo/etc/lunisolar`

Exact arithmetic instead of floating point: times in UTC are seconds since the epoch, Julian dates are in units of
1/864000000 of a day (ten-thousandths of a second).
-/

namespace TC.Lunisolar

/-- The table of corrections, `etc/lunisolar` lines 191-768: year, month, day and the correction in ten-thousandths
of a second.  Generated from the source. -/
def correctionRows : List (Int × Int × Int × Int) :=
  [(1700, 1, 1, 321840), (1973, 2, 1, 434724), (1973, 3, 1, 435648), (1973, 4, 1, 436737), (1973, 5, 1, 437782),
    (1973, 6, 1, 438763), (1973, 7, 1, 439562), (1973, 8, 1, 440315), (1973, 9, 1, 441132), (1973, 10, 1, 441982),
    (1973, 11, 1, 442952), (1973, 12, 1, 443936), (1974, 1, 1, 444840), (1974, 2, 1, 445646), (1974, 3, 1, 446425),
    (1974, 4, 1, 447386), (1974, 5, 1, 448370), (1974, 6, 1, 449302), (1974, 7, 1, 449986), (1974, 8, 1, 450583),
    (1974, 9, 1, 451284), (1974, 10, 1, 452064), (1974, 11, 1, 452980), (1974, 12, 1, 453897),
    (1975, 1, 1, 454761), (1975, 2, 1, 455632), (1975, 3, 1, 456450), (1975, 4, 1, 457374), (1975, 5, 1, 458284),
    (1975, 6, 1, 459133), (1975, 7, 1, 459820), (1975, 8, 1, 460407), (1975, 9, 1, 461067), (1975, 10, 1, 461825),
    (1975, 11, 1, 462788), (1975, 12, 1, 463713), (1976, 1, 1, 464567), (1976, 2, 1, 465445), (1976, 3, 1, 466311),
    (1976, 4, 1, 467302), (1976, 5, 1, 468283), (1976, 6, 1, 469247), (1976, 7, 1, 469970), (1976, 8, 1, 470709),
    (1976, 9, 1, 471450), (1976, 10, 1, 472361), (1976, 11, 1, 473413), (1976, 12, 1, 474319),
    (1977, 1, 1, 475214), (1977, 2, 1, 476049), (1977, 3, 1, 476837), (1977, 4, 1, 477781), (1977, 5, 1, 478771),
    (1977, 6, 1, 479687), (1977, 7, 1, 480348), (1977, 8, 1, 480942), (1977, 9, 1, 481608), (1977, 10, 1, 482460),
    (1977, 11, 1, 483438), (1977, 12, 1, 484355), (1978, 1, 1, 485344), (1978, 2, 1, 486324), (1978, 3, 1, 487294),
    (1978, 4, 1, 488365), (1978, 5, 1, 489353), (1978, 6, 1, 490319), (1978, 7, 1, 491013), (1978, 8, 1, 491591),
    (1978, 9, 1, 492285), (1978, 10, 1, 493070), (1978, 11, 1, 494018), (1978, 12, 1, 494945),
    (1979, 1, 1, 495861), (1979, 2, 1, 496805), (1979, 3, 1, 497602), (1979, 4, 1, 498556), (1979, 5, 1, 499489),
    (1979, 6, 1, 500347), (1979, 7, 1, 501018), (1979, 8, 1, 501622), (1979, 9, 1, 502260), (1979, 10, 1, 502968),
    (1979, 11, 1, 503831), (1979, 12, 1, 504599), (1980, 1, 1, 505387), (1980, 2, 1, 506160), (1980, 3, 1, 506866),
    (1980, 4, 1, 507658), (1980, 5, 1, 508454), (1980, 6, 1, 509187), (1980, 7, 1, 509761), (1980, 8, 1, 510278),
    (1980, 9, 1, 510843), (1980, 10, 1, 511538), (1980, 11, 1, 512319), (1980, 12, 1, 513063),
    (1981, 1, 1, 513808), (1981, 2, 1, 514526), (1981, 3, 1, 515160), (1981, 4, 1, 515985), (1981, 5, 1, 516809),
    (1981, 6, 1, 517573), (1981, 7, 1, 518133), (1981, 8, 1, 518532), (1981, 9, 1, 519014), (1981, 10, 1, 519603),
    (1981, 11, 1, 520328), (1981, 12, 1, 520985), (1982, 1, 1, 521668), (1982, 2, 1, 522316), (1982, 3, 1, 522938),
    (1982, 4, 1, 523680), (1982, 5, 1, 524465), (1982, 6, 1, 525179), (1982, 7, 1, 525751), (1982, 8, 1, 526178),
    (1982, 9, 1, 526668), (1982, 10, 1, 527340), (1982, 11, 1, 528056), (1982, 12, 1, 528792),
    (1983, 1, 1, 529565), (1983, 2, 1, 530445), (1983, 3, 1, 531268), (1983, 4, 1, 532197), (1983, 5, 1, 533024),
    (1983, 6, 1, 533747), (1983, 7, 1, 534335), (1983, 8, 1, 534778), (1983, 9, 1, 535300), (1983, 10, 1, 535845),
    (1983, 11, 1, 536523), (1983, 12, 1, 537256), (1984, 1, 1, 537882), (1984, 2, 1, 538367), (1984, 3, 1, 538830),
    (1984, 4, 1, 539443), (1984, 5, 1, 540042), (1984, 6, 1, 540536), (1984, 7, 1, 540856), (1984, 8, 1, 541084),
    (1984, 9, 1, 541463), (1984, 10, 1, 541914), (1984, 11, 1, 542452), (1984, 12, 1, 542958),
    (1985, 1, 1, 543427), (1985, 2, 1, 543911), (1985, 3, 1, 544320), (1985, 4, 1, 544898), (1985, 5, 1, 545456),
    (1985, 6, 1, 545977), (1985, 7, 1, 546355), (1985, 8, 1, 546532), (1985, 9, 1, 546776), (1985, 10, 1, 547174),
    (1985, 11, 1, 547741), (1985, 12, 1, 548253), (1986, 1, 1, 548712), (1986, 2, 1, 549161), (1986, 3, 1, 549580),
    (1986, 4, 1, 549997), (1986, 5, 1, 550476), (1986, 6, 1, 550912), (1986, 7, 1, 551132), (1986, 8, 1, 551328),
    (1986, 9, 1, 551532), (1986, 10, 1, 551898), (1986, 11, 1, 552415), (1986, 12, 1, 552838),
    (1987, 1, 1, 553222), (1987, 2, 1, 553613), (1987, 3, 1, 554063), (1987, 4, 1, 554629), (1987, 5, 1, 555111),
    (1987, 6, 1, 555524), (1987, 7, 1, 555812), (1987, 8, 1, 556004), (1987, 9, 1, 556262), (1987, 10, 1, 556656),
    (1987, 11, 1, 557168), (1987, 12, 1, 557698), (1988, 1, 1, 558197), (1988, 2, 1, 558615), (1988, 3, 1, 559130),
    (1988, 4, 1, 559663), (1988, 5, 1, 560220), (1988, 6, 1, 560700), (1988, 7, 1, 560939), (1988, 8, 1, 561105),
    (1988, 9, 1, 561314), (1988, 10, 1, 561611), (1988, 11, 1, 562068), (1988, 12, 1, 562582),
    (1989, 1, 1, 563000), (1989, 2, 1, 563399), (1989, 3, 1, 563790), (1989, 4, 1, 564283), (1989, 5, 1, 564804),
    (1989, 6, 1, 565352), (1989, 7, 1, 565697), (1989, 8, 1, 565983), (1989, 9, 1, 566328), (1989, 10, 1, 566739),
    (1989, 11, 1, 567332), (1989, 12, 1, 567972), (1990, 1, 1, 568553), (1990, 2, 1, 569111), (1990, 3, 1, 569755),
    (1990, 4, 1, 570471), (1990, 5, 1, 571136), (1990, 6, 1, 571738), (1990, 7, 1, 572226), (1990, 8, 1, 572597),
    (1990, 9, 1, 573073), (1990, 10, 1, 573643), (1990, 11, 1, 574334), (1990, 12, 1, 575016),
    (1991, 1, 1, 575653), (1991, 2, 1, 576333), (1991, 3, 1, 576973), (1991, 4, 1, 577711), (1991, 5, 1, 578407),
    (1991, 6, 1, 579058), (1991, 7, 1, 579576), (1991, 8, 1, 579975), (1991, 9, 1, 580425), (1991, 10, 1, 581043),
    (1991, 11, 1, 581679), (1991, 12, 1, 582389), (1992, 1, 1, 583092), (1992, 2, 1, 583833), (1992, 3, 1, 584537),
    (1992, 4, 1, 585401), (1992, 5, 1, 586228), (1992, 6, 1, 586917), (1992, 7, 1, 587410), (1992, 8, 1, 587836),
    (1992, 9, 1, 588405), (1992, 10, 1, 588986), (1992, 11, 1, 589714), (1992, 12, 1, 590438),
    (1993, 1, 1, 591218), (1993, 2, 1, 592003), (1993, 3, 1, 592747), (1993, 4, 1, 593574), (1993, 5, 1, 594434),
    (1993, 6, 1, 595242), (1993, 7, 1, 595850), (1993, 8, 1, 596343), (1993, 9, 1, 596928), (1993, 10, 1, 597588),
    (1993, 11, 1, 598386), (1993, 12, 1, 599111), (1994, 1, 1, 599844), (1994, 2, 1, 600564), (1994, 3, 1, 601231),
    (1994, 4, 1, 602042), (1994, 5, 1, 602804), (1994, 6, 1, 603530), (1994, 7, 1, 604012), (1994, 8, 1, 604440),
    (1994, 9, 1, 604900), (1994, 10, 1, 605578), (1994, 11, 1, 606324), (1994, 12, 1, 607059),
    (1995, 1, 1, 607853), (1995, 2, 1, 608663), (1995, 3, 1, 609387), (1995, 4, 1, 610277), (1995, 5, 1, 611103),
    (1995, 6, 1, 611870), (1995, 7, 1, 612454), (1995, 8, 1, 612881), (1995, 9, 1, 613378), (1995, 10, 1, 614036),
    (1995, 11, 1, 614760), (1995, 12, 1, 615525), (1996, 1, 1, 616287), (1996, 2, 1, 616846), (1996, 3, 1, 617433),
    (1996, 4, 1, 618132), (1996, 5, 1, 618823), (1996, 6, 1, 619497), (1996, 7, 1, 619969), (1996, 8, 1, 620343),
    (1996, 9, 1, 620714), (1996, 10, 1, 621202), (1996, 11, 1, 621809), (1996, 12, 1, 622382),
    (1997, 1, 1, 622950), (1997, 2, 1, 623506), (1997, 3, 1, 623995), (1997, 4, 1, 624754), (1997, 5, 1, 625463),
    (1997, 6, 1, 626136), (1997, 7, 1, 626571), (1997, 8, 1, 626942), (1997, 9, 1, 627383), (1997, 10, 1, 627926),
    (1997, 11, 1, 628567), (1997, 12, 1, 629146), (1998, 1, 1, 629659), (1998, 2, 1, 630217), (1998, 3, 1, 630807),
    (1998, 4, 1, 631462), (1998, 5, 1, 632053), (1998, 6, 1, 632599), (1998, 7, 1, 632844), (1998, 8, 1, 632961),
    (1998, 9, 1, 633126), (1998, 10, 1, 633422), (1998, 11, 1, 633871), (1998, 12, 1, 634339),
    (1999, 1, 1, 634673), (1999, 2, 1, 634979), (1999, 3, 1, 635319), (1999, 4, 1, 635679), (1999, 5, 1, 636104),
    (1999, 6, 1, 636444), (1999, 7, 1, 636642), (1999, 8, 1, 636739), (1999, 9, 1, 636926), (1999, 10, 1, 637147),
    (1999, 11, 1, 637518), (1999, 12, 1, 637927), (2000, 1, 1, 638285), (2000, 2, 1, 638557), (2000, 3, 1, 638804),
    (2000, 4, 1, 639075), (2000, 5, 1, 639393), (2000, 6, 1, 639691), (2000, 7, 1, 639799), (2000, 8, 1, 639833),
    (2000, 9, 1, 639938), (2000, 10, 1, 640093), (2000, 11, 1, 640400), (2000, 12, 1, 640670),
    (2001, 1, 1, 640908), (2001, 2, 1, 641068), (2001, 3, 1, 641282), (2001, 4, 1, 641584), (2001, 5, 1, 641833),
    (2001, 6, 1, 642094), (2001, 7, 1, 642117), (2001, 8, 1, 642073), (2001, 9, 1, 642116), (2001, 10, 1, 642223),
    (2001, 11, 1, 642500), (2001, 12, 1, 642761), (2002, 1, 1, 642998), (2002, 2, 1, 643192), (2002, 3, 1, 643450),
    (2002, 4, 1, 643735), (2002, 5, 1, 643943), (2002, 6, 1, 644151), (2002, 7, 1, 644132), (2002, 8, 1, 644118),
    (2002, 9, 1, 644097), (2002, 10, 1, 644168), (2002, 11, 1, 644329), (2002, 12, 1, 644511),
    (2003, 1, 1, 644734), (2003, 2, 1, 644893), (2003, 3, 1, 645053), (2003, 4, 1, 645269), (2003, 5, 1, 645471),
    (2003, 6, 1, 645597), (2003, 7, 1, 645512), (2003, 8, 1, 645371), (2003, 9, 1, 645359), (2003, 10, 1, 645415),
    (2003, 11, 1, 645544), (2003, 12, 1, 645654), (2004, 1, 1, 645736), (2004, 2, 1, 645891), (2004, 3, 1, 646015),
    (2004, 4, 1, 646176), (2004, 5, 1, 646374), (2004, 6, 1, 646549), (2004, 7, 1, 646530), (2004, 8, 1, 646379),
    (2004, 9, 1, 646372), (2004, 10, 1, 646400), (2004, 11, 1, 646543), (2004, 12, 1, 646723),
    (2005, 1, 1, 646876), (2005, 2, 1, 647052), (2005, 3, 1, 647313), (2005, 4, 1, 647575), (2005, 5, 1, 647811),
    (2005, 6, 1, 648001), (2005, 7, 1, 647995), (2005, 8, 1, 647876), (2005, 9, 1, 647831), (2005, 10, 1, 647921),
    (2005, 11, 1, 648096), (2005, 12, 1, 648311), (2006, 1, 1, 648452), (2006, 2, 1, 648597), (2006, 3, 1, 648850),
    (2006, 4, 1, 649175), (2006, 5, 1, 649480), (2006, 6, 1, 649794), (2006, 7, 1, 649895), (2006, 8, 1, 650028),
    (2006, 9, 1, 650138), (2006, 10, 1, 650371), (2006, 11, 1, 650773), (2006, 12, 1, 651122),
    (2007, 1, 1, 651464), (2007, 2, 1, 651833), (2007, 3, 1, 652145), (2007, 4, 1, 652494), (2007, 5, 1, 652921),
    (2007, 6, 1, 653279), (2007, 7, 1, 653413), (2007, 8, 1, 653452), (2007, 9, 1, 653496), (2007, 10, 1, 653711),
    (2007, 11, 1, 653972), (2007, 12, 1, 654296), (2008, 1, 1, 654574), (2008, 2, 1, 654868), (2008, 3, 1, 655152),
    (2008, 4, 1, 655450), (2008, 5, 1, 655781), (2008, 6, 1, 656127), (2008, 7, 1, 656288), (2008, 8, 1, 656370),
    (2008, 9, 1, 656493), (2008, 10, 1, 656760), (2008, 11, 1, 657097), (2008, 12, 1, 657461),
    (2009, 1, 1, 657768), (2009, 2, 1, 658025), (2009, 3, 1, 658237), (2009, 4, 1, 658595), (2009, 5, 1, 658973),
    (2009, 6, 1, 659323), (2009, 7, 1, 659509), (2009, 8, 1, 659534), (2009, 9, 1, 659628), (2009, 10, 1, 659839),
    (2009, 11, 1, 660147), (2009, 12, 1, 660421), (2010, 1, 1, 660699), (2010, 2, 1, 660961), (2010, 3, 1, 661310),
    (2010, 4, 1, 661683), (2010, 5, 1, 662072), (2010, 6, 1, 662356), (2010, 7, 1, 662409), (2010, 8, 1, 662335),
    (2010, 9, 1, 662349), (2010, 10, 1, 662441), (2010, 11, 1, 662751), (2010, 12, 1, 663054),
    (2011, 1, 1, 663246), (2011, 2, 1, 663406), (2011, 3, 1, 663624), (2011, 4, 1, 663957), (2011, 5, 1, 664289),
    (2011, 6, 1, 664619), (2011, 7, 1, 664749), (2011, 8, 1, 664751), (2011, 9, 1, 664829), (2011, 10, 1, 665056),
    (2011, 11, 1, 665383), (2011, 12, 1, 665706), (2012, 1, 1, 666030), (2012, 2, 1, 666340), (2012, 3, 1, 666569),
    (2012, 4, 1, 666925), (2012, 5, 1, 667289), (2012, 6, 1, 667579), (2012, 7, 1, 667708), (2012, 8, 1, 667740),
    (2012, 9, 1, 667846), (2012, 10, 1, 668103), (2012, 11, 1, 668401), (2012, 12, 1, 668779),
    (2013, 1, 1, 669069), (2013, 2, 1, 669443), (2013, 3, 1, 669763), (2013, 4, 1, 670258), (2013, 5, 1, 670716),
    (2013, 6, 1, 671100), (2013, 7, 1, 671266), (2013, 8, 1, 671331), (2013, 9, 1, 671458), (2013, 10, 1, 671717),
    (2013, 11, 1, 672091), (2013, 12, 1, 672460), (2014, 1, 1, 672810), (2014, 2, 1, 673136), (2014, 3, 1, 673457),
    (2014, 4, 1, 673890), (2014, 5, 1, 674318), (2014, 6, 1, 674666), (2014, 7, 1, 674859), (2014, 8, 1, 674989),
    (2014, 9, 1, 675111), (2014, 10, 1, 675353), (2014, 11, 1, 675711), (2014, 12, 1, 676070),
    (2015, 1, 1, 676439), (2015, 2, 1, 676765), (2015, 3, 1, 677117), (2015, 4, 1, 677591), (2015, 5, 1, 678012),
    (2015, 6, 1, 678402), (2015, 7, 1, 678606), (2015, 8, 1, 678822), (2015, 9, 1, 679120), (2015, 10, 1, 679547),
    (2015, 11, 1, 680055), (2015, 12, 1, 680514), (2016, 1, 1, 681024), (2016, 2, 1, 681577), (2016, 3, 1, 682044),
    (2016, 4, 1, 682665), (2016, 5, 1, 683188), (2016, 6, 1, 683704), (2016, 7, 1, 683964), (2016, 8, 1, 684095),
    (2016, 9, 1, 684305), (2016, 10, 1, 684630), (2016, 11, 1, 685078), (2016, 12, 1, 685537),
    (2017, 1, 1, 685927), (2017, 2, 1, 686298), (2017, 3, 1, 686671), (2017, 4, 1, 687135), (2017, 5, 1, 687623),
    (2017, 6, 1, 688033), (2017, 7, 1, 688245), (2017, 8, 1, 688373), (2017, 9, 1, 688477), (2017, 10, 1, 688689),
    (2017, 11, 1, 689006), (2017, 12, 1, 689355), (2018, 1, 1, 689677), (2018, 3, 1, 691400), (2018, 6, 1, 693000),
    (2018, 9, 1, 693000), (2019, 1, 1, 695000), (2019, 3, 1, 696000), (2019, 6, 1, 697000), (2019, 9, 1, 698000),
    (2020, 1, 1, 699000), (2020, 3, 1, 700000), (2020, 6, 1, 700000), (2020, 9, 1, 700000), (2021, 1, 1, 700000),
    (2021, 3, 1, 700000), (2021, 6, 1, 700000), (2021, 9, 1, 700000), (2022, 1, 1, 700000), (2022, 3, 1, 700000),
    (2022, 6, 1, 710000), (2022, 9, 1, 710000), (2023, 1, 1, 710000), (2023, 3, 1, 710000), (2023, 6, 1, 710000),
    (2023, 9, 1, 710000), (2024, 1, 1, 710000), (2024, 3, 1, 710000), (2024, 6, 1, 710000), (2024, 9, 1, 710000),
    (2025, 1, 1, 710000), (2025, 3, 1, 720000), (2025, 6, 1, 720000), (2025, 9, 1, 720000), (2026, 1, 1, 720000)]

/-- `utc_to_jd_tt.corrections`, `etc/lunisolar` lines 185-186 and 191-770: day and correction. -/
def corrections : List (Int × Int) := correctionRows.map fun r => (dayOf r.1 r.2.1 r.2.2.1, r.2.2.2)

/-- `correction_ix` for one time, `etc/lunisolar` lines 176-181. -/
def correctionIx (table : List (Int × Int)) (ts : Int) : Nat :=
  let ix := searchRight (table.map fun c => c.1 * 86400) ts
  if ix = table.length then ix - 1 else ix

/-- `utc_to_jd_tt` for one time and a table, `etc/lunisolar` lines 159-182. -/
def jdTt (table : List (Int × Int)) (ts : Int) : Int :=
  (ts * 10000 + 2440587 * 864000000 + 432000000) + (table.getD (correctionIx table ts) (0, 0)).2

/-- `utc_to_jd_tt` for one time, `etc/lunisolar` lines 159-182, with the table of lines 191-770. -/
def utcToJdTt (ts : Int) : Int := jdTt corrections ts

end TC.Lunisolar
