"""Write `lean/Verif/Spec/FeastDates.lean`: the dates of movable feasts and single closures, as printed
in /repo.

This reads the sources as lines of text (comments dropped, everything that looks like a date between the
brackets of the named list kept), not through the syntax tree `gen_exchanges.py` uses for the model, so
that the specification and the model are transcribed independently.

Usage: python3 -B tools/gen_feasts.py
"""
import os
import re

REPO = '/repo/trading_calendars/'
OUT = os.path.join(os.path.dirname(os.path.abspath(__file__)), '../lean/Verif/Spec/FeastDates.lean')

# (title, file, python name, lean name)
TABLES = [
    ('Chinese new year', 'lunisolar_holidays.py', 'chinese_lunar_new_year_dates', 'lunarNewYear'),
    ('Qingming', 'lunisolar_holidays.py', 'qingming_festival_dates', 'qingming'),
    ("Buddha's birthday, Chinese reckoning", 'lunisolar_holidays.py',
     'chinese_buddhas_birthday_dates', 'buddhasBirthday'),
    ('The dragon boat festival', 'lunisolar_holidays.py', 'dragon_boat_festival_dates', 'dragonBoat'),
    ('The mid-autumn festival', 'lunisolar_holidays.py', 'mid_autumn_festival_dates', 'midAutumn'),
    ('The double ninth festival', 'lunisolar_holidays.py', 'double_ninth_festival_dates', 'doubleNinth'),
    ('Eid al-Fitr, Turkish reckoning', 'common_holidays.py', 'eid_al_fitr_first_day', 'eidAlFitr'),
    ('Eid al-Adha, Turkish reckoning', 'common_holidays.py', 'eid_al_adha_first_day', 'eidAlAdha'),
    ("Nuzul al-Qur'an in Malaysia", 'xkls_holidays.py', 'malaysia_nuzul_al_quran', 'nuzulMalaysia'),
    ('Muharram in Malaysia', 'xkls_holidays.py', 'muharram', 'muharramMalaysia'),
    ("Muhammad's birthday in Malaysia", 'xkls_holidays.py', 'muhammad_birthday', 'mawlidMalaysia'),
    ('Eid al-Fitr in Malaysia', 'xkls_holidays.py', 'malaysia_eid_al_fitr_first_day',
     'eidAlFitrMalaysia'),
    ('Eid al-Adha in Malaysia', 'xkls_holidays.py', 'malaysia_eid_al_adha', 'eidAlAdhaMalaysia'),
    ('Deepavali in Malaysia', 'xkls_holidays.py', 'deepavali', 'deepavaliMalaysia'),
    ('Thaipusam in Malaysia', 'xkls_holidays.py', 'thaipusam', 'thaipusamMalaysia'),
    ('Wesak in Malaysia', 'xkls_holidays.py', 'wesak_day', 'wesakMalaysia'),
    ('Single closures of Kuala Lumpur', 'xkls_holidays.py', 'misc_adhoc', 'kualaLumpurClosures'),
    ('Bridge days at New Year in Bangkok', 'xbkk_holidays.py', 'new_years_bridge_days',
     'newYearBridgesThailand'),
    ('Bridge days at Asanha Bucha in Bangkok', 'xbkk_holidays.py', 'asanha_bucha_bridge_days',
     'asanhaBuchaBridgesThailand'),
    ("Bridge days at the queen's birthday in Bangkok", 'xbkk_holidays.py',
     'queens_birthday_bridge_days', 'queensBirthdayBridgesThailand'),
    ('Bridge days at coronation day in Bangkok', 'xbkk_holidays.py', 'coronation_bridge_days',
     'coronationBridgesThailand'),
    ('Bridge days at Vesak in Bangkok', 'xbkk_holidays.py', 'vesak_bridge_days',
     'vesakBridgesThailand'),
    ('Single closures of Bangkok', 'xbkk_holidays.py', 'misc_adhoc', 'bangkokClosures'),
    ('Makha Bucha in Thailand', 'xbkk_holidays.py', 'makha_bucha', 'makhaBucha'),
    ('Vesak in Thailand', 'xbkk_holidays.py', 'vesak', 'vesakThailand'),
    ('Asanha Bucha in Thailand', 'xbkk_holidays.py', 'asanha_bucha', 'asanhaBucha'),
    ('Common leave in Indonesia', 'exchange_calendar_xidx.py', 'common_leave', 'commonLeaveIndonesia'),
    ('Islamic new year in Indonesia', 'exchange_calendar_xidx.py', 'islamic_new_year',
     'islamicNewYearIndonesia'),
    ('Eid al-Fitr in Indonesia', 'exchange_calendar_xidx.py', 'eid_al_fitr', 'eidAlFitrIndonesia'),
    ('Eid al-Adha in Indonesia', 'exchange_calendar_xidx.py', 'eid_al_adha', 'eidAlAdhaIndonesia'),
    ("Isra Mi'raj in Indonesia", 'exchange_calendar_xidx.py', 'isra_mikraj', 'israMirajIndonesia'),
    ("Muhammad's birthday in Indonesia", 'exchange_calendar_xidx.py', 'birth_of_prophet_muhammad',
     'mawlidIndonesia'),
    ('Vesak in Indonesia', 'exchange_calendar_xidx.py', 'vesak_day', 'vesakIndonesia'),
    ('Hindu new year in Indonesia', 'exchange_calendar_xidx.py', 'hindu_saka_new_year',
     'nyepiIndonesia'),
    ('Trading suspensions in Jakarta', 'exchange_calendar_xidx.py', 'spontaneous_closures',
     'suspensionsJakarta'),
    ('Elections in Indonesia', 'exchange_calendar_xidx.py', 'election_holidays',
     'electionsIndonesia'),
    ('Jumu\'ah tul-Wida in Pakistan', 'exchange_calendar_xkar.py', 'juma_tul_wida',
     'jumaTulWidaPakistan'),
    ('Eid al-Fitr in Pakistan', 'exchange_calendar_xkar.py', 'eid_ul_fitr', 'eidAlFitrPakistan'),
    ('Eid al-Adha in Pakistan', 'exchange_calendar_xkar.py', 'eid_ul_azha', 'eidAlAdhaPakistan'),
    ('Ashura in Pakistan', 'exchange_calendar_xkar.py', 'ashura', 'ashuraPakistan'),
    ("Muhammad's birthday in Pakistan", 'exchange_calendar_xkar.py', 'eid_milad_un_nabi',
     'mawlidPakistan'),
    ("New Year's days on which Karachi closed", 'exchange_calendar_xkar.py', 'new_years_day',
     'newYearPakistan'),
    ('Single closures of Karachi', 'exchange_calendar_xkar.py', 'miscellaneous_closures',
     'karachiClosures'),
    ('Eid al-Fitr in the Philippines', 'exchange_calendar_xphs.py', 'philippines_eid_al_fitr',
     'eidAlFitrPhilippines'),
    ('Eid al-Adha in the Philippines', 'exchange_calendar_xphs.py', 'philippines_eid_al_adha',
     'eidAlAdhaPhilippines'),
    ('Single closures of Manila', 'exchange_calendar_xphs.py', 'misc_adhoc', 'manilaClosures'),
    ('Holidays in Manila until 2010', 'exchange_calendar_xphs.py', 'pre_2011_holidays',
     'manilaUntil2010'),
    ('Single closures of Hong Kong', 'exchange_calendar_xhkg.py', 'HKAdhocClosures',
     'hongKongClosures'),
    ('More days off at Chinese new year in Taiwan', 'exchange_calendar_xtai.py',
     'chinese_new_year_extras', 'newYearExtrasTaiwan'),
    ('Single closures of Taipei', 'exchange_calendar_xtai.py', 'extra_holidays', 'taipeiClosures'),
    ('Typhoons in Taipei', 'exchange_calendar_xtai.py', 'typhoons', 'taipeiTyphoons'),
    ('Single closures of Istanbul', 'exchange_calendar_xist.py', 'misc_adhoc', 'istanbulClosures'),
    ('Holidays in Mumbai', 'exchange_calendar_xbom.py', 'precomputed_bse_holidays', 'mumbaiHolidays'),
    ('Holidays in Seoul', 'exchange_calendar_xkrx.py', 'precomputed_krx_holidays', 'seoulHolidays'),
    ('Holidays in Singapore', 'exchange_calendar_xses.py', 'precomputed_ses_holidays',
     'singaporeHolidays'),
    ('Holidays in Shanghai', 'exchange_calendar_xshg.py', 'precomputed_shanghai_holidays',
     'shanghaiHolidays'),
]

DATE = re.compile(r"(\d{4})-(\d{2})-(\d{2})")


def table(path, name):
    lines = open(REPO + path, encoding='utf-8').read().split('\n')
    start = next(i for i, line in enumerate(lines) if re.match(r'\s*%s = ' % name, line))
    depth, dates, i = 0, [], start
    while True:
        text = lines[i].split('#')[0]
        dates += [tuple(int(g) for g in m) for m in DATE.findall(text)]
        depth += sum(text.count(c) for c in '([') - sum(text.count(c) for c in ')]')
        if depth == 0:
            return start + 1, i + 1, dates
        i += 1


def main():
    out = ['import Verif.Spec.Books', '', '/-!', '# Dates of movable feasts and single closures', '',
           'As printed in the repository.  Written by `tools/gen_feasts.py`.', '-/', '',
           'namespace TC.Spec.Feasts', '']
    for title, path, name, lean in TABLES:
        a, b, dates = table(path, name)
        out.append(f'/-- {title} (`{path}` lines {a}-{b}). -/')
        out.append(f'def {lean} : List (Int × Int × Int) :=')
        line = '  ['
        for k, (y, m, d) in enumerate(dates):
            item = f'({y}, {m}, {d})' + (']' if k == len(dates) - 1 else ',')
            if len(line) + len(item) + 1 > 100:
                out.append(line)
                line = '  '
            line += ('' if line.endswith('[') else ' ') + item
        out.append(line)
        out.append('')
    out.append('end TC.Spec.Feasts')
    open(OUT, 'w', encoding='utf-8').write('\n'.join(out) + '\n')


main()
